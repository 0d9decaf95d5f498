import Verif.Spec.Ax
import Verif.Lemmas.MessagePost
import Verif.Lemmas.Association
/-! # Lemmas on attribute exchange -/

namespace Ax
open Py Message Association NamespaceMap Spec

theorem type_iff (k : Str) : startsWith k t!"type." = true ↔ ∃ a, k = t!"type." ++ a := startsWith_iff _ _

theorem type_inj {a b : Str} : t!"type." ++ a = t!"type." ++ b ↔ a = b := Iff.of_eq (List.append_cancel_left_eq _ _ _)

theorem okAlias_nameable {a : Str} (hc : ',' ∉ a) (h : okAlias (.name a) = true) : Nameable a := by
  simp only [okAlias, Bool.and_eq_true, Bool.not_eq_true', List.contains_iff_mem, ← Bool.not_eq_true] at h
  exact ⟨hc, h.2, h.1⟩

theorem nameable_okAlias {a : Str} (h : Nameable a) : okAlias (.name a) = true := by
  simp only [okAlias, Bool.and_eq_true, Bool.not_eq_true', List.contains_iff_mem, ← Bool.not_eq_true]
  exact ⟨h.2.2, h.2.1⟩

theorem checkAlias_ok {a : Str} : checkAlias a = .ok () ↔ ',' ∉ a ∧ '.' ∉ a := by
  unfold checkAlias
  split
  · simp_all
  · split <;> simp_all

theorem checkMode_ok {mode : Str} {args : Dict Str Str} : checkMode mode args = .ok () ↔ args.get? t!"mode" = some mode := by
  unfold checkMode
  split
  · simp_all
  · split <;> simp_all

/-- the types among processed arguments -/
structure MapOf (P : Dict Str Str) (m : NamespaceMap) : Prop where
  inv : Inv m
  imp : m.implicit = []
  get : ∀ u a, m.nsToAlias.get? u = some a ↔ ∃ b, a = .name b ∧ (t!"type." ++ b, u) ∈ P

theorem MapOf.uri {P : Dict Str Str} {m : NamespaceMap} (h : MapOf P m) (b u : Str) :
    m.aliasToNs.get? (.name b) = some u ↔ (t!"type." ++ b, u) ∈ P := by
  rw [h.inv.bij, h.get]
  constructor
  · rintro ⟨c, e, hc⟩; cases e; exact hc
  · intro h; exact ⟨b, rfl, h⟩

theorem mapOf_nil : MapOf [] {} :=
  ⟨inv_empty, rfl, by simp [Dict.get?]⟩

/-- other arguments do not count -/
theorem MapOf.skip {P : Dict Str Str} {m : NamespaceMap} (h : MapOf P m) (kv : Str × Str)
    (hk : ¬ ∃ a, kv.1 = t!"type." ++ a) : MapOf (P ++ [kv]) m := by
  refine ⟨h.inv, h.imp, fun u a => ?_⟩
  rw [h.get]
  constructor
  · rintro ⟨b, e, hb⟩; exact ⟨b, e, List.mem_append.2 (.inl hb)⟩
  · rintro ⟨b, e, hb⟩
    rw [List.mem_append, List.mem_singleton] at hb
    rcases hb with hb | hb
    · exact ⟨b, e, hb⟩
    · exact absurd ⟨b, by rw [← hb]⟩ hk

theorem MapOf.add {P : Dict Str Str} {m m' : NamespaceMap} (h : MapOf P m) (b u : Str)
    (ha : m.addAlias u (.name b) = .ok m') : MapOf (P ++ [(t!"type." ++ b, u)]) m' := by
  have hi := inv_addAlias m h.inv u _ _ _ ha
  obtain ⟨h1, h2, h3, h4, rfl⟩ := addAlias_ok m u _ _ _ ha
  refine ⟨hi, by simpa using h.imp, fun w a => ?_⟩
  simp only [Dict.get?_set]
  by_cases hw : u = w
  · subst hw
    simp only [if_true, Option.some.injEq]
    constructor
    · rintro rfl; exact ⟨b, rfl, by simp⟩
    · rintro ⟨c, rfl, hc⟩
      rw [List.mem_append, List.mem_singleton] at hc
      rcases hc with hc | hc
      · have := (h.get u (.name c)).2 ⟨c, rfl, hc⟩
        rw [this] at h3
        simpa [eq_comm] using h3
      · cases type_inj.1 (congrArg Prod.fst hc); rfl
  · simp only [hw, if_false]
    rw [h.get]
    constructor
    · rintro ⟨c, e, hc⟩; exact ⟨c, e, List.mem_append.2 (.inl hc)⟩
    · rintro ⟨c, e, hc⟩
      rw [List.mem_append, List.mem_singleton] at hc
      rcases hc with hc | hc
      · exact ⟨c, e, hc⟩
      · exact absurd (congrArg Prod.snd hc).symm hw

/-- an alias can be added if the types stay consistent -/
theorem MapOf.can {P : Dict Str Str} {m : NamespaceMap} (h : MapOf P m) (b u : Str) (hb : okAlias (.name b) = true)
    (h1 : ∀ w, (t!"type." ++ b, w) ∈ P → w = u) (h2 : ∀ c, (t!"type." ++ c, u) ∈ P → c = b) :
    ∃ m', m.addAlias u (.name b) = .ok m' := by
  refine ⟨_, addAlias_of m u _ _ hb ?_ ?_ (by simp [h.imp])⟩
  · cases hg : m.aliasToNs.get? (.name b) with
    | none => exact .inl rfl
    | some w => right; rw [h1 w ((h.uri b w).1 hg)]
  · cases hg : m.nsToAlias.get? u with
    | none => exact .inl rfl
    | some a =>
      obtain ⟨c, rfl, hc⟩ := (h.get u a).1 hg
      right; rw [h2 c hc]

theorem fresh_of_wf {P R : Dict Str Str} {k v : Str} (h : Dict.WF (P ++ (k, v) :: R)) (w : Str) : (k, w) ∉ P := by
  intro hm
  rw [Dict.WF, Dict.keys, List.map_append, List.nodup_append] at h
  exact h.2.2 k (List.mem_map.2 ⟨(k, w), hm, rfl⟩) k (by simp) rfl

/-! ## values -/

/-- the types of the arguments that were processed -/
structure KvInv (P : Dict Str Str) (m : NamespaceMap) : Prop where
  map : MapOf P m
  ok : ∀ b u, (t!"type." ++ b, u) ∈ P → Nameable b

theorem kvFold (P R : Dict Str Str) (m m' : NamespaceMap) (h : KvInv P m)
    (hf : R.foldlM kvType m = .ok m') : KvInv (P ++ R) m' := by
  induction R generalizing P m with
  | nil => cases hf; simpa using h
  | cons kv R ih =>
    rw [List.foldlM_cons] at hf
    obtain ⟨m1, h1, h2⟩ := bind_eq_ok.1 hf
    have : KvInv (P ++ [kv]) m1 := by
      unfold kvType at h1
      split at h1
      next hs =>
        obtain ⟨a, ha⟩ := (type_iff _).1 hs
        obtain ⟨k, u⟩ := kv
        simp only at ha
        subst ha
        obtain ⟨⟨⟩, h3, h4⟩ := bind_eq_ok.1 h1
        simp only [List.cons_append, List.drop_succ_cons, List.nil_append, List.drop_zero] at h3 h4
        refine ⟨h.map.add a u h4, fun b w hb => ?_⟩
        rw [List.mem_append, List.mem_singleton] at hb
        rcases hb with hb | hb
        · exact h.ok b w hb
        · cases type_inj.1 (congrArg Prod.fst hb)
          exact okAlias_nameable (checkAlias_ok.1 h3).1 (addAlias_ok _ _ _ _ _ h4).1
      next hs =>
        cases h1
        have hk : ¬ ∃ a, kv.1 = t!"type." ++ a := fun hx => hs ((type_iff _).2 hx)
        refine ⟨h.map.skip kv hk, fun b w hb => ?_⟩
        rw [List.mem_append, List.mem_singleton] at hb
        rcases hb with hb | hb
        · exact h.ok b w hb
        · exact absurd ⟨b, by rw [← hb]⟩ hk
    have := ih (P ++ [kv]) m1 this h2
    simpa using this

theorem kvFold_ex (P R : Dict Str Str) (hw : Dict.WF (P ++ R)) (m : NamespaceMap) (h : KvInv P m)
    (h1 : ∀ b u, (t!"type." ++ b, u) ∈ P ++ R → Nameable b)
    (h2 : ∀ a b u, (t!"type." ++ a, u) ∈ P ++ R → (t!"type." ++ b, u) ∈ P ++ R → a = b) :
    ∃ m', R.foldlM kvType m = .ok m' := by
  induction R generalizing P m with
  | nil => exact ⟨m, rfl⟩
  | cons kv R ih =>
    have key : ∃ m1, kvType m kv = .ok m1 := by
      unfold kvType
      split
      next hs =>
        obtain ⟨a, ha⟩ := (type_iff _).1 hs
        obtain ⟨k, u⟩ := kv
        simp only at ha
        subst ha
        have hn := h1 a u (by simp)
        obtain ⟨m1, hm1⟩ := h.map.can a u (nameable_okAlias hn) (fun w hw' => absurd hw' (fresh_of_wf hw w))
          (fun c hc => h2 c a u (List.mem_append.2 (.inl hc)) (by simp))
        refine ⟨m1, ?_⟩
        simp only [List.cons_append, List.drop_succ_cons, List.nil_append, List.drop_zero]
        rw [checkAlias_ok.2 ⟨hn.1, hn.2.1⟩, ok_bind, hm1]
      next hs => exact ⟨m, rfl⟩
    obtain ⟨m1, hm1⟩ := key
    have hp : KvInv (P ++ [kv]) m1 := kvFold P [kv] m m1 h (by
      rw [List.foldlM_cons, hm1]; rfl)
    obtain ⟨m', hm'⟩ := ih (P ++ [kv]) (by simpa using hw) m1 hp (by simpa using h1) (by simpa using h2)
    exact ⟨m', by rw [List.foldlM_cons, hm1]; exact hm'⟩

theorem valuesFrom_ok (args : Dict Str Str) (a : Str) (i n : Nat) (vs : List Str) :
    valuesFrom args a i n = .ok vs ↔ vs.length = n ∧ ∀ j v, vs[j]? = some v → args.get? (valueKey a (i + j)) = some v := by
  induction n generalizing i vs with
  | zero =>
    simp only [valuesFrom, Except.ok.injEq]
    constructor
    · rintro rfl; simp
    · rintro ⟨h, -⟩; exact (List.length_eq_zero_iff.1 h).symm
  | succ n ih =>
    rw [valuesFrom]
    cases hg : args.get? (valueKey a i) with
    | none =>
      simp only [reduceCtorEq, false_iff]
      rintro ⟨h1, h2⟩
      cases vs with
      | nil => simp at h1
      | cons v vs => have := h2 0 v (by simp); rw [Nat.add_zero, hg] at this; cases this
    | some w =>
      simp only []
      constructor
      · intro h
        obtain ⟨vs', h1, h2⟩ := bind_eq_ok.1 h
        cases h2
        obtain ⟨h3, h4⟩ := (ih _ _).1 h1
        refine ⟨by simp [h3], fun j v hj => ?_⟩
        cases j with
        | zero => simp at hj; subst hj; simpa using hg
        | succ j => simp at hj; have := h4 j v hj; rwa [show i + (j + 1) = i + 1 + j by omega]
      · rintro ⟨h1, h2⟩
        cases vs with
        | nil => simp at h1
        | cons v vs =>
          have hv := h2 0 v (by simp)
          rw [Nat.add_zero, hg] at hv
          cases hv
          rw [(ih (i + 1) vs).2 ⟨by simpa using h1, fun j x hj => by
            have := h2 (j + 1) x (by simpa using hj)
            rwa [show i + (j + 1) = i + 1 + j by omega] at this⟩]
          rfl

theorem kvValues_ok (X : ExtraDigits) (args : Dict Str Str) (a : Str) (vs : List Str) :
    kvValues X args a = .ok vs ↔ ValuesAre X args a vs := by
  unfold kvValues ValuesAre
  cases hc : args.get? (t!"count." ++ a) with
  | none =>
    cases hv : args.get? (t!"value." ++ a) with
    | none => simp
    | some v => simp [eq_comm]
  | some s =>
    simp only [reduceCtorEq, false_and, false_or, Option.some.injEq]
    constructor
    · intro h
      obtain ⟨n, h1, h2⟩ := bind_eq_ok.1 h
      obtain ⟨h3, h4⟩ := (valuesFrom_ok _ _ _ _ _).1 h2
      refine ⟨s, n, rfl, h1, h3, fun i v hi => ?_⟩
      rw [Nat.add_comm]; exact h4 i v hi
    · rintro ⟨s', n, rfl, h1, h2, h3⟩
      rw [h1, ok_bind]
      refine (valuesFrom_ok _ _ _ _ _).2 ⟨h2, fun i v hi => ?_⟩
      have := h3 i v hi
      rw [Nat.add_comm] at this; exact this

theorem kvTakes (X : ExtraDigits) (args : Dict Str Str) (l : Dict Str Alias) (hl : Dict.WF l) (d d' : Data) (hd : Dict.WF d)
    (h : l.foldlM (kvTake X args) d = .ok d') :
    Dict.WF d' ∧ (∀ x ∈ l, ∃ b vs, x.2 = .name b ∧ kvValues X args b = .ok vs) ∧
    ∀ u vs, d'.get? u = some vs ↔
      (∃ b, (u, .name b) ∈ l ∧ kvValues X args b = .ok vs) ∨ (u ∉ Dict.keys l ∧ d.get? u = some vs) := by
  induction l generalizing d with
  | nil => cases h; exact ⟨hd, by simp, by simp [Dict.keys]⟩
  | cons x l ih =>
    obtain ⟨u0, a0⟩ := x
    rw [List.foldlM_cons] at h
    obtain ⟨d1, h1, h2⟩ := bind_eq_ok.1 h
    cases a0 with
    | null => simp [kvTake] at h1
    | name b0 =>
      simp only [kvTake] at h1
      obtain ⟨vs0, h3, h4⟩ := bind_eq_ok.1 h1
      cases h4
      have hu0 : u0 ∉ Dict.keys l := by rw [Dict.WF, Dict.keys, List.map_cons, List.nodup_cons] at hl; exact hl.1
      have hl' : Dict.WF l := by rw [Dict.WF, Dict.keys, List.map_cons, List.nodup_cons] at hl; exact hl.2
      obtain ⟨g1, g2, g3⟩ := ih hl' _ (Dict.WF_set d hd _ _) h2
      refine ⟨g1, ?_, fun u vs => ?_⟩
      · intro x hx
        rcases List.mem_cons.1 hx with rfl | hx
        · exact ⟨b0, vs0, rfl, h3⟩
        · exact g2 x hx
      · rw [g3]
        simp only [Dict.get?_set, List.mem_cons, Prod.mk.injEq, Alias.name.injEq]
        have hk : u ∈ Dict.keys ((u0, Alias.name b0) :: l) ↔ u = u0 ∨ u ∈ Dict.keys l := by simp [Dict.keys]
        rw [hk]
        constructor
        · rintro (⟨b, hb, hv⟩ | ⟨hn, hv⟩)
          · exact .inl ⟨b, .inr hb, hv⟩
          · split at hv
            · next e => subst e; cases hv; exact .inl ⟨b0, .inl ⟨rfl, rfl⟩, h3⟩
            · next e => exact .inr ⟨by rintro (e' | e'); exact e e'.symm; exact hn e', hv⟩
        · rintro (⟨b, ⟨rfl, rfl⟩ | hb, hv⟩ | ⟨hn, hv⟩)
          · rw [h3] at hv; cases hv
            exact .inr ⟨hu0, by simp⟩
          · exact .inl ⟨b, hb, hv⟩
          · have hne : u0 ≠ u := fun e => hn (.inl e.symm)
            exact .inr ⟨fun e => hn (.inr e), by rw [if_neg hne]; exact hv⟩

theorem kvTakes_ex (X : ExtraDigits) (args : Dict Str Str) (l : Dict Str Alias) (d : Data)
    (h : ∀ x ∈ l, ∃ b vs, x.2 = .name b ∧ kvValues X args b = .ok vs) : ∃ d', l.foldlM (kvTake X args) d = .ok d' := by
  induction l generalizing d with
  | nil => exact ⟨d, rfl⟩
  | cons x l ih =>
    obtain ⟨b, vs, e1, e2⟩ := h x (by simp)
    obtain ⟨d', hd'⟩ := ih (d.set x.1 vs) (fun y hy => h y (by simp [hy]))
    refine ⟨d', ?_⟩
    rw [List.foldlM_cons, kvTake, e1]
    simp only [e2, ok_bind, pure_eq_ok]
    exact hd'

/-- the values that arguments give: exactly when they are understood, and what they say -/
theorem kvParse_iff (X : ExtraDigits) (mode : Str) (args : Dict Str Str) (hw : Dict.WF args) :
    ((∃ d, kvParse X mode [] args = .ok d) ↔ ValuesOk X mode args) ∧
    ∀ d, kvParse X mode [] args = .ok d → Dict.WF d ∧
      ∀ u vs, d.get? u = some vs ↔ ∃ a, typeOf args a = some u ∧ ValuesAre X args a vs := by
  have hmem : ∀ a u, typeOf args a = some u ↔ (t!"type." ++ a, u) ∈ args := fun a u =>
    ⟨fun h => Dict.get?_mem _ _ _ h, fun h => Dict.get?_of_mem _ hw _ _ h⟩
  have run : ∀ d, kvParse X mode [] args = .ok d → args.get? t!"mode" = some mode ∧ ∃ m, KvInv args m ∧
      args.foldlM kvType {} = .ok m ∧ m.nsToAlias.foldlM (kvTake X args) [] = .ok d := by
    intro d h
    unfold kvParse at h
    obtain ⟨⟨⟩, h1, h2⟩ := bind_eq_ok.1 h
    obtain ⟨m, h3, h4⟩ := bind_eq_ok.1 h2
    refine ⟨checkMode_ok.1 h1, m, ?_, h3, h4⟩
    simpa using kvFold [] args {} m ⟨mapOf_nil, by simp⟩ h3
  refine ⟨⟨?_, ?_⟩, ?_⟩
  · rintro ⟨d, h⟩
    obtain ⟨h1, m, h2, h3, h4⟩ := run d h
    obtain ⟨g1, g2, g3⟩ := kvTakes X args _ h2.map.inv.wfN _ _ Dict.WF_nil h4
    refine ⟨h1, ⟨fun a u ha => h2.ok a u ((hmem a u).1 ha), ?_⟩, ?_⟩
    · intro a b u ha hb
      have ha' := (h2.map.get u (.name a)).2 ⟨a, rfl, (hmem a u).1 ha⟩
      have hb' := (h2.map.get u (.name b)).2 ⟨b, rfl, (hmem b u).1 hb⟩
      rw [ha'] at hb'
      cases hb'; rfl
    · intro a u ha
      have ha' := (h2.map.get u (.name a)).2 ⟨a, rfl, (hmem a u).1 ha⟩
      obtain ⟨b, vs, e1, e2⟩ := g2 _ (Dict.get?_mem _ _ _ ha')
      cases e1
      exact ⟨vs, (kvValues_ok _ _ _ _).1 e2⟩
  · intro hv
    obtain ⟨m, hm⟩ := kvFold_ex [] args (by simpa using hw) {} ⟨mapOf_nil, by simp⟩
      (fun b u hb => hv.types.alias b u ((hmem b u).2 (by simpa using hb)))
      (fun a b u ha hb => hv.types.once a b u ((hmem a u).2 (by simpa using ha)) ((hmem b u).2 (by simpa using hb)))
    have hi : KvInv args m := by simpa using kvFold [] args {} m ⟨mapOf_nil, by simp⟩ hm
    obtain ⟨d, hd⟩ := kvTakes_ex X args m.nsToAlias [] (by
      rintro ⟨u, a⟩ hx
      obtain ⟨b, rfl, hb⟩ := (hi.map.get u a).1 (Dict.get?_of_mem _ hi.map.inv.wfN _ _ hx)
      obtain ⟨vs, hvs⟩ := hv.values b u ((hmem b u).2 hb)
      exact ⟨b, vs, rfl, (kvValues_ok _ _ _ _).2 hvs⟩)
    exact ⟨d, by rw [kvParse, checkMode_ok.2 hv.mode, ok_bind, hm, ok_bind, hd]⟩
  · intro d h
    obtain ⟨h1, m, h2, h3, h4⟩ := run d h
    obtain ⟨g1, g2, g3⟩ := kvTakes X args _ h2.map.inv.wfN _ _ Dict.WF_nil h4
    refine ⟨g1, fun u vs => ?_⟩
    rw [g3]
    simp only [Dict.get?_nil, reduceCtorEq, and_false, or_false]
    constructor
    · rintro ⟨b, hb, hv⟩
      obtain ⟨c, e, hc⟩ := (h2.map.get u _).1 (Dict.get?_of_mem _ h2.map.inv.wfN _ _ hb)
      cases e
      exact ⟨b, (hmem b u).2 hc, (kvValues_ok _ _ _ _).1 hv⟩
    · rintro ⟨a, ha, hv⟩
      exact ⟨a, Dict.get?_mem _ _ _ ((h2.map.get u _).2 ⟨a, rfl, (hmem a u).1 ha⟩), (kvValues_ok _ _ _ _).2 hv⟩

/-! ## fetch requests -/

theorem parseCount_ok (X : ExtraDigits) (args : Dict Str Str) (a : Str) (c : Count) :
    parseCount X (args.get? (t!"count." ++ a)) = .ok c ↔ CountIs X args a c := by
  unfold CountIs
  cases hg : args.get? (t!"count." ++ a) with
  | none =>
    constructor
    · intro h; cases h; exact .inl ⟨.inl rfl, rfl⟩
    · rintro (⟨-, rfl⟩ | ⟨s, h, -⟩)
      · rfl
      · cases h
  | some s =>
    cases s with
    | nil =>
      constructor
      · intro h; cases h; exact .inl ⟨.inr rfl, rfl⟩
      · rintro (⟨-, rfl⟩ | ⟨s, h, h', -⟩)
        · rfl
        · cases h; exact absurd rfl h'
    | cons x xs =>
      unfold parseCount
      constructor
      · intro h
        right
        refine ⟨x :: xs, rfl, by simp, ?_⟩
        simp only [] at h
        split at h
        · next n hp =>
          split at h
          · cases h
          · next hn => cases h; exact .inl ⟨n, hp, by omega, rfl⟩
        · next e hp =>
          split at h
          · next hu => cases h; exact .inr ⟨fun n hn => (by rw [hp] at hn; cases hn), hu, rfl⟩
          · cases h
      · rintro (⟨h | h, -⟩ | ⟨s, h1, -, h2⟩)
        · cases h
        · cases h
        · cases h1
          simp only []
          rcases h2 with ⟨n, h3, h4, rfl⟩ | ⟨h3, h4, rfl⟩
          · rw [h3]; simp only []; rw [if_neg (by omega)]
          · cases hp : parseInt X (x :: xs) with
            | ok n => exact absurd hp (h3 n)
            | error e => simp only []; rw [if_pos h4]

theorem attrNew_ok {u : Str} {c : Count} {a : Str} {i : AttrInfo} (h : AttrInfo.new u c false (some a) = .ok i) :
    ',' ∉ a ∧ '.' ∉ a ∧ i = ⟨u, c, false, some a⟩ := by
  unfold AttrInfo.new at h
  simp only [] at h
  obtain ⟨⟨⟩, h1, h2⟩ := bind_eq_ok.1 h
  cases h2
  exact ⟨(checkAlias_ok.1 h1).1, (checkAlias_ok.1 h1).2, rfl⟩

theorem attrNew_of {u : Str} {c : Count} {a : Str} (h1 : ',' ∉ a) (h2 : '.' ∉ a) :
    AttrInfo.new u c false (some a) = .ok ⟨u, c, false, some a⟩ := by
  unfold AttrInfo.new
  simp only []
  rw [checkAlias_ok.2 ⟨h1, h2⟩]; rfl

/-- the types of the arguments that were processed, and the attributes -/
structure FetchInv (X : ExtraDigits) (args P : Dict Str Str) (s : NamespaceMap × FetchRequest) : Prop where
  map : MapOf P s.1
  ok : ∀ b u, (t!"type." ++ b, u) ∈ P → Nameable b ∧ ∃ c, CountIs X args b c
  wf : Dict.WF s.2.requested
  get : ∀ u i, s.2.requested.get? u = some i ↔
    ∃ b c, (t!"type." ++ b, u) ∈ P ∧ CountIs X args b c ∧ i = ⟨u, c, false, some b⟩

theorem countIs_unique {X : ExtraDigits} {args : Dict Str Str} {a : Str} {c d : Count} (h : CountIs X args a c)
    (h' : CountIs X args a d) : c = d := by
  rw [← parseCount_ok] at h h'
  rw [h] at h'; cases h'; rfl

theorem fetchFold (X : ExtraDigits) (args P R : Dict Str Str) (hw : Dict.WF (P ++ R)) (s s' : NamespaceMap × FetchRequest)
    (h : FetchInv X args P s) (hf : R.foldlM (FetchRequest.parseType X args) s = .ok s') : FetchInv X args (P ++ R) s' := by
  induction R generalizing P s with
  | nil => cases hf; simpa using h
  | cons kv R ih =>
    rw [List.foldlM_cons] at hf
    obtain ⟨s1, h1, h2⟩ := bind_eq_ok.1 hf
    have : FetchInv X args (P ++ [kv]) s1 := by
      unfold FetchRequest.parseType at h1
      split at h1
      next hs =>
        obtain ⟨a, ha⟩ := (type_iff _).1 hs
        obtain ⟨k, u⟩ := kv
        simp only at ha
        subst ha
        simp only [List.cons_append, List.drop_succ_cons, List.nil_append, List.drop_zero] at h1
        obtain ⟨m1, g1, h1⟩ := bind_eq_ok.1 h1
        obtain ⟨c, g2, h1⟩ := bind_eq_ok.1 h1
        obtain ⟨i, g3, h1⟩ := bind_eq_ok.1 h1
        obtain ⟨r1, g4, h1⟩ := bind_eq_ok.1 h1
        cases h1
        obtain ⟨e1, e2, rfl⟩ := attrNew_ok g3
        have hc := (parseCount_ok X args a c).1 g2
        have hm := h.map.add a u g1
        unfold FetchRequest.add at g4
        split at g4
        next => cases g4
        next hn =>
        cases g4
        refine ⟨hm, ?_, Dict.WF_set _ h.wf _ _, ?_⟩
        · intro b w hb
          rw [List.mem_append, List.mem_singleton] at hb
          rcases hb with hb | hb
          · exact h.ok b w hb
          · cases type_inj.1 (congrArg Prod.fst hb)
            exact ⟨okAlias_nameable e1 (addAlias_ok _ _ _ _ _ g1).1, c, hc⟩
        · intro w i
          simp only [Dict.get?_set]
          by_cases hw' : u = w
          · subst hw'
            simp only [if_true, Option.some.injEq]
            constructor
            · rintro rfl; exact ⟨a, c, by simp, hc, rfl⟩
            · rintro ⟨b, c', hb, hc', rfl⟩
              have e1 := (hm.get u (.name b)).2 ⟨b, rfl, hb⟩
              have e2 := (hm.get u (.name a)).2 ⟨a, rfl, by simp⟩
              rw [e1] at e2
              cases e2
              rw [countIs_unique hc hc']
          · simp only [hw', if_false]
            rw [h.get]
            constructor
            · rintro ⟨b, c', hb, r⟩; exact ⟨b, c', List.mem_append.2 (.inl hb), r⟩
            · rintro ⟨b, c', hb, r⟩
              rw [List.mem_append, List.mem_singleton] at hb
              rcases hb with hb | hb
              · exact ⟨b, c', hb, r⟩
              · exact absurd (congrArg Prod.snd hb).symm hw'
      next hs =>
        cases h1
        have hk : ¬ ∃ a, kv.1 = t!"type." ++ a := fun hx => hs ((type_iff _).2 hx)
        have hmem : ∀ b w, (t!"type." ++ b, w) ∈ P ++ [kv] ↔ (t!"type." ++ b, w) ∈ P := by
          intro b w
          rw [List.mem_append, List.mem_singleton]
          refine ⟨fun hb => ?_, .inl⟩
          rcases hb with hb | hb
          · exact hb
          · exact absurd ⟨b, by rw [← hb]⟩ hk
        refine ⟨h.map.skip kv hk, fun b w hb => h.ok b w ((hmem b w).1 hb), h.wf, fun u i => ?_⟩
        rw [h.get]
        simp only [hmem]
    have := ih (P ++ [kv]) (by simpa using hw) s1 this h2
    simpa using this

theorem fetchFold_ex (X : ExtraDigits) (args P R : Dict Str Str) (hw : Dict.WF (P ++ R)) (s : NamespaceMap × FetchRequest)
    (h : FetchInv X args P s) (h1 : ∀ b u, (t!"type." ++ b, u) ∈ P ++ R → Nameable b ∧ ∃ c, CountIs X args b c)
    (h2 : ∀ a b u, (t!"type." ++ a, u) ∈ P ++ R → (t!"type." ++ b, u) ∈ P ++ R → a = b) :
    ∃ s', R.foldlM (FetchRequest.parseType X args) s = .ok s' := by
  induction R generalizing P s with
  | nil => exact ⟨s, rfl⟩
  | cons kv R ih =>
    have key : ∃ s1, FetchRequest.parseType X args s kv = .ok s1 := by
      unfold FetchRequest.parseType
      split
      next hs =>
        obtain ⟨a, ha⟩ := (type_iff _).1 hs
        obtain ⟨k, u⟩ := kv
        simp only at ha
        subst ha
        obtain ⟨hn, c, hc⟩ := h1 a u (by simp)
        obtain ⟨m1, hm1⟩ := h.map.can a u (nameable_okAlias hn) (fun w hw' => absurd hw' (fresh_of_wf hw w))
          (fun c hc => h2 c a u (List.mem_append.2 (.inl hc)) (by simp))
        simp only [List.cons_append, List.drop_succ_cons, List.nil_append, List.drop_zero]
        simp only [hm1, ok_bind]
        have hc' := (parseCount_ok X args a c).2 hc
        simp only [List.cons_append, List.nil_append] at hc'
        simp only [hc', ok_bind, attrNew_of hn.1 hn.2.1]
        unfold FetchRequest.add
        rw [if_neg]
        · exact ⟨_, rfl⟩
        · intro hh
          rw [Dict.has, Option.isSome_iff_exists] at hh
          obtain ⟨i, hi⟩ := hh
          obtain ⟨b, c', hb, -⟩ := (h.get u i).1 hi
          have := h2 b a u (List.mem_append.2 (.inl hb)) (by simp)
          subst this
          exact fresh_of_wf hw u hb
      next hs => exact ⟨s, rfl⟩
    obtain ⟨s1, hs1⟩ := key
    have hp : FetchInv X args (P ++ [kv]) s1 := fetchFold X args P [kv] (by
      have : P ++ kv :: R = (P ++ [kv]) ++ R := by simp
      rw [this, Dict.WF, Dict.keys, List.map_append, List.nodup_append] at hw
      exact hw.1) s s1 h (by rw [List.foldlM_cons, hs1]; rfl)
    obtain ⟨s', hs'⟩ := ih (P ++ [kv]) (by simpa using hw) s1 hp (by simpa using h1) (by simpa using h2)
    exact ⟨s', by rw [List.foldlM_cons, hs1]; exact hs'⟩

theorem toTypeURIs_eq (m : NamespaceMap) (o : Option Str) : toTypeURIs m o = typesOf m (namesIn o) := by
  cases o with
  | none => rfl
  | some s => cases s <;> rfl

theorem typesOf_ok (m : NamespaceMap) (l us : List Str) (h : typesOf m l = .ok us) :
    (∀ a ∈ l, ∃ u ∈ us, m.getNamespaceURI (.name a) = some u) ∧ ∀ u ∈ us, ∃ a ∈ l, m.getNamespaceURI (.name a) = some u := by
  induction l generalizing us with
  | nil => cases h; simp
  | cons a l ih =>
    rw [typesOf] at h
    cases hg : m.getNamespaceURI (.name a) with
    | none => rw [hg] at h; cases h
    | some u =>
      rw [hg] at h
      obtain ⟨us', h1, h2⟩ := bind_eq_ok.1 h
      cases h2
      obtain ⟨g1, g2⟩ := ih us' h1
      refine ⟨?_, ?_⟩
      · intro b hb
        rcases List.mem_cons.1 hb with rfl | hb
        · exact ⟨u, by simp, hg⟩
        · obtain ⟨w, hw, e⟩ := g1 b hb; exact ⟨w, by simp [hw], e⟩
      · intro w hw
        rcases List.mem_cons.1 hw with rfl | hw
        · exact ⟨a, by simp, hg⟩
        · obtain ⟨b, hb, e⟩ := g2 w hw; exact ⟨b, by simp [hb], e⟩

theorem typesOf_ex (m : NamespaceMap) (l : List Str) (h : ∀ a ∈ l, ∃ u, m.getNamespaceURI (.name a) = some u) :
    ∃ us, typesOf m l = .ok us := by
  induction l with
  | nil => exact ⟨[], rfl⟩
  | cons a l ih =>
    obtain ⟨u, hu⟩ := h a (by simp)
    obtain ⟨us, hus⟩ := ih (fun b hb => h b (by simp [hb]))
    exact ⟨u :: us, by rw [typesOf, hu, hus]; rfl⟩

theorem setRequired_fold (us : List Str) (r r' : FetchRequest) (hw : Dict.WF r.requested)
    (h : us.foldlM FetchRequest.setRequired r = .ok r') :
    Dict.WF r'.requested ∧ r'.updateUrl = r.updateUrl ∧ ∀ u, r'.requested.get? u =
      (r.requested.get? u).map (fun i => if u ∈ us then { i with required := true } else i) := by
  induction us generalizing r with
  | nil => cases h; exact ⟨hw, rfl, fun u => by cases Dict.get? _ u <;> simp⟩
  | cons u us ih =>
    rw [List.foldlM_cons] at h
    obtain ⟨r1, h1, h2⟩ := bind_eq_ok.1 h
    unfold FetchRequest.setRequired at h1
    cases hg : r.requested.get? u with
    | none => rw [hg] at h1; cases h1
    | some i =>
      rw [hg] at h1
      cases h1
      obtain ⟨g1, g2, g3⟩ := ih _ (Dict.WF_set _ hw _ _) h2
      refine ⟨g1, g2, fun w => ?_⟩
      rw [g3]
      simp only [Dict.get?_set]
      by_cases e : u = w
      · subst e
        simp only [if_true, hg, Option.map_some, List.mem_cons, true_or]
        split <;> rfl
      · have e' : ¬ w = u := fun x => e x.symm
        simp only [e, e', if_false, List.mem_cons, false_or]

theorem setRequired_ex (us : List Str) (r : FetchRequest) (h : ∀ u ∈ us, (r.requested.get? u).isSome = true) :
    ∃ r', us.foldlM FetchRequest.setRequired r = .ok r' := by
  induction us generalizing r with
  | nil => exact ⟨r, rfl⟩
  | cons u us ih =>
    obtain ⟨i, hi⟩ := Option.isSome_iff_exists.1 (h u (by simp))
    obtain ⟨r', hr'⟩ := ih { r with requested := r.requested.set u { i with required := true } } (by
      intro w hw
      simp only [Dict.get?_set]
      split
      · rfl
      · exact h w (by simp [hw]))
    refine ⟨r', ?_⟩
    rw [List.foldlM_cons, FetchRequest.setRequired, hi]
    exact hr'

/-- what arguments ask for: exactly when they are understood, and what they say -/
theorem fetchParse_iff (X : ExtraDigits) (args : Dict Str Str) (hw : Dict.WF args) :
    ((∃ r, FetchRequest.parseExtensionArgs X {} args = .ok r) ↔ FetchOk X args) ∧
    ∀ r, FetchRequest.parseExtensionArgs X {} args = .ok r → Dict.WF r.requested ∧
      r.updateUrl = args.get? t!"update_url" ∧
      ∀ u i, r.requested.get? u = some i ↔ ∃ a c, typeOf args a = some u ∧ CountIs X args a c ∧
        i = ⟨u, c, decide (a ∈ namesIn (args.get? t!"required")), some a⟩ := by
  have hmem : ∀ a u, typeOf args a = some u ↔ (t!"type." ++ a, u) ∈ args := fun a u =>
    ⟨fun h => Dict.get?_mem _ _ _ h, fun h => Dict.get?_of_mem _ hw _ _ h⟩
  have hinv0 : FetchInv X args [] ({}, {}) := ⟨mapOf_nil, by simp, Dict.WF_nil, by simp [Dict.get?]⟩
  have huri : ∀ s : NamespaceMap × FetchRequest, FetchInv X args args s → ∀ a u,
      s.1.getNamespaceURI (.name a) = some u ↔ typeOf args a = some u := by
    intro s hs a u
    rw [NamespaceMap.getNamespaceURI, hs.map.uri, hmem]
  have run : ∀ r, FetchRequest.parseExtensionArgs X {} args = .ok r → args.get? t!"mode" = some t!"fetch_request" ∧
      ∃ s rq ia r1, FetchInv X args args s ∧ typesOf s.1 (namesIn (args.get? t!"required")) = .ok rq ∧
        rq.foldlM FetchRequest.setRequired s.2 = .ok r1 ∧
        typesOf s.1 (namesIn (args.get? t!"if_available")) = .ok ia ∧
        (∀ u ∈ Dict.keys s.1.nsToAlias, u ∈ rq ++ ia) ∧ r = { r1 with updateUrl := args.get? t!"update_url" } := by
    intro r h
    unfold FetchRequest.parseExtensionArgs at h
    obtain ⟨⟨⟩, h1, h⟩ := bind_eq_ok.1 h
    obtain ⟨s, h2, h⟩ := bind_eq_ok.1 h
    obtain ⟨rq, h3, h⟩ := bind_eq_ok.1 h
    obtain ⟨r1, h4, h⟩ := bind_eq_ok.1 h
    obtain ⟨ia, h5, h⟩ := bind_eq_ok.1 h
    split at h
    next hall =>
      cases h
      rw [toTypeURIs_eq] at h3 h5
      refine ⟨checkMode_ok.1 h1, s, rq, ia, r1, by simpa using fetchFold X args [] args (by simpa using hw) _ s hinv0 h2, h3, h4, h5, ?_, rfl⟩
      intro u hu
      exact List.contains_iff_mem.1 (List.all_eq_true.1 hall u hu)
    next => cases h
  have sound : ∀ s : NamespaceMap × FetchRequest, FetchInv X args args s → ∀ o us, typesOf s.1 (namesIn o) = .ok us →
      ∀ a u, typeOf args a = some u → (u ∈ us ↔ a ∈ namesIn o) := by
    intro s hs o us ht a u ha
    obtain ⟨g1, g2⟩ := typesOf_ok _ _ _ ht
    constructor
    · intro hu
      obtain ⟨b, hb, e⟩ := g2 u hu
      have e' := (hs.map.get u (.name b)).2 ⟨b, rfl, (hmem b u).1 ((huri s hs b u).1 e)⟩
      have e'' := (hs.map.get u (.name a)).2 ⟨a, rfl, (hmem a u).1 ha⟩
      rw [e'] at e''; cases e''; exact hb
    · intro hb
      obtain ⟨w, hw', e⟩ := g1 a hb
      have := (huri s hs a w).1 e
      rw [ha] at this; cases this; exact hw'
  have hkeys : ∀ s : NamespaceMap × FetchRequest, FetchInv X args args s → ∀ u, u ∈ Dict.keys s.1.nsToAlias ↔ ∃ a, typeOf args a = some u := by
    intro s hs u
    rw [Dict.mem_keys_iff, Option.isSome_iff_exists]
    constructor
    · rintro ⟨x, hx⟩
      obtain ⟨b, -, hb⟩ := (hs.map.get u x).1 hx
      exact ⟨b, (hmem b u).2 hb⟩
    · rintro ⟨a, ha⟩
      exact ⟨_, (hs.map.get u (.name a)).2 ⟨a, rfl, (hmem a u).1 ha⟩⟩
  refine ⟨⟨?_, ?_⟩, ?_⟩
  · rintro ⟨r, h⟩
    obtain ⟨h1, s, rq, ia, r1, hs, h2, h3, h4, h5, h6⟩ := run r h
    refine ⟨h1, ⟨fun a u ha => (hs.ok a u ((hmem a u).1 ha)).1, ?_⟩, fun a u ha => (hs.ok a u ((hmem a u).1 ha)).2, ?_, ?_⟩
    · intro a b u ha hb
      have ha' := (hs.map.get u (.name a)).2 ⟨a, rfl, (hmem a u).1 ha⟩
      have hb' := (hs.map.get u (.name b)).2 ⟨b, rfl, (hmem b u).1 hb⟩
      rw [ha'] at hb'
      cases hb'; rfl
    · intro a u ha
      rcases List.mem_append.1 (h5 u ((hkeys s hs u).2 ⟨a, ha⟩)) with hu | hu
      · exact .inl ((sound s hs _ _ h2 a u ha).1 hu)
      · exact .inr ((sound s hs _ _ h4 a u ha).1 hu)
    · rintro a (ha | ha)
      · obtain ⟨u, -, e⟩ := (typesOf_ok _ _ _ h2).1 a ha; exact ⟨u, (huri s hs a u).1 e⟩
      · obtain ⟨u, -, e⟩ := (typesOf_ok _ _ _ h4).1 a ha; exact ⟨u, (huri s hs a u).1 e⟩
  · intro hv
    obtain ⟨s, hs⟩ := fetchFold_ex X args [] args (by simpa using hw) ({}, {}) hinv0
      (fun b u hb => ⟨hv.types.alias b u ((hmem b u).2 (by simpa using hb)), hv.count b u ((hmem b u).2 (by simpa using hb))⟩)
      (fun a b u ha hb => hv.types.once a b u ((hmem a u).2 (by simpa using ha)) ((hmem b u).2 (by simpa using hb)))
    have hi : FetchInv X args args s := by simpa using fetchFold X args [] args (by simpa using hw) _ s hinv0 hs
    obtain ⟨rq, h2⟩ := typesOf_ex s.1 (namesIn (args.get? t!"required")) (fun a ha => by
      obtain ⟨u, hu⟩ := hv.defined a (.inl ha); exact ⟨u, (huri s hi a u).2 hu⟩)
    obtain ⟨ia, h4⟩ := typesOf_ex s.1 (namesIn (args.get? t!"if_available")) (fun a ha => by
      obtain ⟨u, hu⟩ := hv.defined a (.inr ha); exact ⟨u, (huri s hi a u).2 hu⟩)
    obtain ⟨r1, h3⟩ := setRequired_ex rq s.2 (by
      intro u hu
      obtain ⟨a, -, e⟩ := (typesOf_ok _ _ _ h2).2 u hu
      have ht := (huri s hi a u).1 e
      obtain ⟨c, hc⟩ := hv.count a u ht
      rw [(hi.get u _).2 ⟨a, c, (hmem a u).1 ht, hc, rfl⟩]; rfl)
    refine ⟨{ r1 with updateUrl := args.get? t!"update_url" }, ?_⟩
    unfold FetchRequest.parseExtensionArgs
    rw [checkMode_ok.2 hv.mode, ok_bind, hs, ok_bind]
    simp only []
    rw [toTypeURIs_eq, h2, ok_bind, h3, ok_bind, toTypeURIs_eq, h4, ok_bind, if_pos]
    · rfl
    · rw [List.all_eq_true]
      intro u hu
      rw [List.contains_iff_mem, List.mem_append]
      obtain ⟨a, ha⟩ := (hkeys s hi u).1 hu
      rcases hv.listed a u ha with hl | hl
      · exact .inl ((sound s hi _ _ h2 a u ha).2 hl)
      · exact .inr ((sound s hi _ _ h4 a u ha).2 hl)
  · intro r h
    obtain ⟨h1, s, rq, ia, r1, hs, h2, h3, h4, h5, rfl⟩ := run r h
    obtain ⟨g1, g2, g3⟩ := setRequired_fold rq s.2 r1 hs.wf h3
    refine ⟨g1, rfl, fun u i => ?_⟩
    simp only [g3]
    rw [Option.map_eq_some_iff]
    constructor
    · rintro ⟨j, hj, rfl⟩
      obtain ⟨b, c, hb, hc, rfl⟩ := (hs.get u j).1 hj
      have ht := (hmem b u).2 hb
      refine ⟨b, c, ht, hc, ?_⟩
      by_cases hu : u ∈ rq
      · simp [hu, (sound s hs _ _ h2 b u ht).1 hu]
      · have : ¬ b ∈ namesIn (args.get? t!"required") := fun x => hu ((sound s hs _ _ h2 b u ht).2 x)
        simp [hu, this]
    · rintro ⟨a, c, ha, hc, rfl⟩
      refine ⟨_, (hs.get u _).2 ⟨a, c, (hmem a u).1 ha, hc, rfl⟩, ?_⟩
      by_cases hu : u ∈ rq
      · simp [hu, (sound s hs _ _ h2 a u ha).1 hu]
      · have : ¬ a ∈ namesIn (args.get? t!"required") := fun x => hu ((sound s hs _ _ h2 a u ha).2 x)
        simp [hu, this]

end Ax
