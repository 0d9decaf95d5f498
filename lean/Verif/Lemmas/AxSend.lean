import Verif.Lemmas.Ax
/-! # Lemmas on attribute exchange: the aliases and the arguments that are sent -/

namespace Ax
open Py Message Association NamespaceMap Spec

/-- a map of types: every alias can stand in a message -/
structure Good (m : NamespaceMap) : Prop where
  inv : Inv m
  imp : m.implicit = []
  name : ∀ u a, m.nsToAlias.get? u = some a → ∃ b, a = .name b ∧ ',' ∉ b

theorem good_empty : Good {} := ⟨inv_empty, rfl, by simp [Dict.get?]⟩

theorem Good.nameable {m : NamespaceMap} (h : Good m) {u a : Str} (hg : m.nsToAlias.get? u = some (.name a)) : Nameable a := by
  obtain ⟨b, e, hb⟩ := h.name u _ hg
  cases e
  exact okAlias_nameable hb (h.inv.ok _ u ((h.inv.bij _ u).2 hg))

theorem Good.inj {m : NamespaceMap} (h : Good m) {u v a : Str} (hu : m.nsToAlias.get? u = some (.name a))
    (hv : m.nsToAlias.get? v = some (.name a)) : u = v := by
  have h1 := (h.inv.bij _ u).2 hu
  have h2 := (h.inv.bij _ v).2 hv
  rw [h1] at h2; cases h2; rfl

theorem addAlias_good {m m' : NamespaceMap} (h : Good m) {u b : Str} (hb : ',' ∉ b)
    (ha : m.addAlias u (.name b) = .ok m') : Good m' ∧ m'.nsToAlias.get? u = some (.name b) ∧
      (∀ w x, m.nsToAlias.get? w = some x → m'.nsToAlias.get? w = some x) := by
  have hi := inv_addAlias m h.inv u _ _ _ ha
  have hk := (addAlias_keeps m u _ _ _ ha).2
  obtain ⟨h1, h2, h3, h4, rfl⟩ := addAlias_ok m u _ _ _ ha
  refine ⟨⟨hi, by simpa using h.imp, ?_⟩, by simp [Dict.get?_set], hk⟩
  intro w a hw
  simp only [Dict.get?_set] at hw
  split at hw
  · cases hw; exact ⟨b, rfl, hb⟩
  · exact h.name w a hw

theorem ext_comma (j : Nat) : ∃ b, ext j = .name b ∧ ',' ∉ b := by
  refine ⟨t!"ext" ++ natToStr j, rfl, ?_⟩
  intro hm
  rcases List.mem_append.1 hm with h | h
  · revert h; decide
  · exact absurd ((natToStr_spec j).2.1 _ h) (by decide)

theorem add_good {m : NamespaceMap} (h : Good m) (u : Str) : ∃ m' b, m.add u = .ok m' ∧ Good m' ∧
    m'.nsToAlias.get? u = some (.name b) ∧ (∀ w x, m.nsToAlias.get? w = some x → m'.nsToAlias.get? w = some x) := by
  rcases add_total m h.inv u with ⟨a, h1, h2⟩ | ⟨h1, j, m', h2, h3, h4, h5⟩
  · obtain ⟨b, rfl, hb⟩ := h.name u a h1
    exact ⟨m, b, h2, h, h1, fun _ _ h => h⟩
  · obtain ⟨b, e, hb⟩ := ext_comma j
    rw [e] at h4
    obtain ⟨g1, g2, g3⟩ := addAlias_good h hb h4
    exact ⟨m', b, h5, g1, g2, g3⟩

theorem pick_good {m m' : NamespaceMap} (h : Good m) {u : Str} {al : Option Str} (hc : ∀ a, al = some a → ',' ∉ a)
    (hp : pickAlias m u al = .ok m') : Good m' ∧ (∃ b, m'.nsToAlias.get? u = some (.name b) ∧ ∀ a, al = some a → b = a) ∧
      (∀ w x, m.nsToAlias.get? w = some x → m'.nsToAlias.get? w = some x) := by
  cases al with
  | none =>
    obtain ⟨m2, b, h1, h2, h3, h4⟩ := add_good h u
    simp only [pickAlias] at hp
    rw [h1] at hp; cases hp
    exact ⟨h2, ⟨b, h3, by simp⟩, h4⟩
  | some a =>
    simp only [pickAlias] at hp
    obtain ⟨h2, h3, h4⟩ := addAlias_good h (hc a rfl) hp
    exact ⟨h2, ⟨a, h3, by simp⟩, h4⟩

theorem nameOf_of {m : NamespaceMap} {u b : Str} (h : m.nsToAlias.get? u = some (.name b)) : nameOf m u = .ok b := by
  rw [nameOf, NamespaceMap.getAlias, h]

/-- an alias that is made up -/
theorem pick_fresh {m m' : NamespaceMap} (h : Good m) {u : Str} {al : Option Str} (hu : m.nsToAlias.get? u = none)
    (hp : pickAlias m u al = .ok m') : (∀ w, w ≠ u → m'.nsToAlias.get? w = m.nsToAlias.get? w) ∧
      (al = none → ∃ j, m'.nsToAlias.get? u = some (.name (t!"ext" ++ natToStr j))) := by
  have key : ∀ b, m.addAlias u b = .ok m' → (∀ w, w ≠ u → m'.nsToAlias.get? w = m.nsToAlias.get? w) ∧
      m'.nsToAlias.get? u = some b := by
    intro b hb
    obtain ⟨-, -, -, -, rfl⟩ := addAlias_ok m u _ _ _ hb
    refine ⟨fun w hw => ?_, by simp [Dict.get?_set]⟩
    have hw' : ¬ u = w := fun e => hw e.symm
    simp [Dict.get?_set, hw']
  cases al with
  | none =>
    rcases add_total m h.inv u with ⟨a, h1, h2⟩ | ⟨h1, j, m2, h2, h3, h4, h5⟩
    · rw [hu] at h1; cases h1
    · simp only [pickAlias] at hp
      rw [h5] at hp; cases hp
      exact ⟨(key _ h4).1, fun _ => ⟨j, (key _ h4).2⟩⟩
  | some a => exact ⟨(key (.name a) hp).1, by simp⟩

theorem named_fresh (l : List (Str × AttrInfo)) (hl : Dict.WF l) {m : NamespaceMap} (h : Good m)
    (hf : ∀ x ∈ l, m.nsToAlias.get? x.1 = none)
    (hc : ∀ x ∈ l, ∀ a, x.2.alias = some a → ',' ∉ a) {n : List (Str × Str × AttrInfo)} (hn : named m l = .ok n) :
    ∀ x ∈ n, x.2.2.alias = none → ∃ j, x.1 = t!"ext" ++ natToStr j := by
  induction l generalizing m n with
  | nil => cases hn; simp
  | cons y l ih =>
    obtain ⟨u, i⟩ := y
    have hl' : u ∉ Dict.keys l ∧ Dict.WF l := by
      rw [Dict.WF, Dict.keys, List.map_cons, List.nodup_cons] at hl; exact hl
    rw [named] at hn
    obtain ⟨m1, h1, hn⟩ := bind_eq_ok.1 hn
    obtain ⟨g1, ⟨b, g2, g3⟩, g4⟩ := pick_good h (hc (u, i) (by simp)) h1
    obtain ⟨f1, f2⟩ := pick_fresh h (hf (u, i) (by simp)) h1
    obtain ⟨a, h2, hn⟩ := bind_eq_ok.1 hn
    rw [nameOf_of g2] at h2; cases h2
    obtain ⟨n', h3, hn⟩ := bind_eq_ok.1 hn
    cases hn
    intro x hx
    rcases List.mem_cons.1 hx with rfl | hx
    · intro ha
      obtain ⟨j, hj⟩ := f2 ha
      rw [g2] at hj
      exact ⟨j, by simpa using hj⟩
    · refine ih hl'.2 g1 (fun y hy => ?_) (fun x hx => hc x (by simp [hx])) h3 x hx
      rw [f1 y.1 (fun e => hl'.1 (List.mem_map.2 ⟨y, hy, e⟩))]
      exact hf y (by simp [hy])

theorem named_good (l : List (Str × AttrInfo)) {m : NamespaceMap} (h : Good m)
    (hc : ∀ x ∈ l, ∀ a, x.2.alias = some a → ',' ∉ a) {n : List (Str × Str × AttrInfo)} (hn : named m l = .ok n) :
    ∃ m', Good m' ∧ (∀ w x, m.nsToAlias.get? w = some x → m'.nsToAlias.get? w = some x) ∧ n.map (·.2) = l ∧
      ∀ x ∈ n, m'.nsToAlias.get? x.2.1 = some (.name x.1) ∧ ∀ a, x.2.2.alias = some a → x.1 = a := by
  induction l generalizing m n with
  | nil => cases hn; exact ⟨m, h, fun _ _ h => h, rfl, by simp⟩
  | cons y l ih =>
    obtain ⟨u, i⟩ := y
    rw [named] at hn
    obtain ⟨m1, h1, hn⟩ := bind_eq_ok.1 hn
    obtain ⟨g1, ⟨b, g2, g3⟩, g4⟩ := pick_good h (hc (u, i) (by simp)) h1
    obtain ⟨a, h2, hn⟩ := bind_eq_ok.1 hn
    rw [nameOf_of g2] at h2; cases h2
    obtain ⟨n', h3, hn⟩ := bind_eq_ok.1 hn
    cases hn
    obtain ⟨m', e1, e2, e3, e4⟩ := ih g1 (fun x hx => hc x (by simp [hx])) h3
    refine ⟨m', e1, fun w x hx => e2 w x (g4 w x hx), by simp [e3], ?_⟩
    intro x hx
    rcases List.mem_cons.1 hx with rfl | hx
    · exact ⟨e2 _ _ g2, fun a ha => g3 a ha⟩
    · exact e4 x hx

theorem kvNamed_good (l : List (Str × List Str)) {m : NamespaceMap} (h : Good m) :
    ∃ n m', kvNamed m l = .ok n ∧ Good m' ∧ (∀ w x, m.nsToAlias.get? w = some x → m'.nsToAlias.get? w = some x) ∧
      n.map (·.2) = l ∧ ∀ x ∈ n, m'.nsToAlias.get? x.2.1 = some (.name x.1) := by
  induction l generalizing m with
  | nil => exact ⟨[], m, rfl, h, fun _ _ h => h, rfl, by simp⟩
  | cons y l ih =>
    obtain ⟨u, vs⟩ := y
    obtain ⟨m1, b, h1, h2, h3, h4⟩ := add_good h u
    obtain ⟨n, m', g1, g2, g3, g4, g5⟩ := ih h2
    refine ⟨(b, u, vs) :: n, m', ?_, g2, fun w x hx => g3 w x (h4 w x hx), by simp [g4], ?_⟩
    · rw [kvNamed, h1, ok_bind, nameOf_of h3, ok_bind, g1]; rfl
    · intro x hx
      rcases List.mem_cons.1 hx with rfl | hx
      · exact g3 _ _ h3
      · exact g5 x hx

theorem checkAttrs_good (d : Data) (l : List AttrInfo) {m m' : NamespaceMap} (h : Good m)
    (hc : ∀ i ∈ l, ∀ a, i.alias = some a → ',' ∉ a) (hn : checkAttrs d m l = .ok m') :
    Good m' ∧ (∀ w x, m.nsToAlias.get? w = some x → m'.nsToAlias.get? w = some x) ∧
      ∀ i ∈ l, tooMany i.count ((d.get? i.typeUri).getD []).length = false ∧
        ∃ b, m'.nsToAlias.get? i.typeUri = some (.name b) ∧ ∀ a, i.alias = some a → b = a := by
  induction l generalizing m with
  | nil => cases hn; exact ⟨h, fun _ _ h => h, by simp⟩
  | cons i l ih =>
    rw [checkAttrs] at hn
    obtain ⟨m1, h1, hn⟩ := bind_eq_ok.1 hn
    obtain ⟨g1, ⟨b, g2, g3⟩, g4⟩ := pick_good h (hc i (by simp)) h1
    split at hn
    next => cases hn
    next ht =>
    obtain ⟨e1, e2, e3⟩ := ih g1 (fun x hx => hc x (by simp [hx])) hn
    refine ⟨e1, fun w x hx => e2 w x (g4 w x hx), ?_⟩
    intro j hj
    rcases List.mem_cons.1 hj with rfl | hj
    · exact ⟨by simpa using ht, b, e2 _ _ g2, g3⟩
    · exact e3 j hj

theorem zeroArgs_good {m : NamespaceMap} (l : List AttrInfo)
    (h : ∀ i ∈ l, ∃ b, m.nsToAlias.get? i.typeUri = some (.name b)) :
    ∃ zs : List (Str × Str × List Str), zeroArgs m l = .ok (zs.flatMap kvArgs) ∧ zs.map (·.2) = l.map (fun i => (i.typeUri, [])) ∧
      ∀ x ∈ zs, m.nsToAlias.get? x.2.1 = some (.name x.1) := by
  induction l with
  | nil => exact ⟨[], rfl, rfl, by simp⟩
  | cons i l ih =>
    obtain ⟨b, hb⟩ := h i (by simp)
    obtain ⟨zs, g1, g2, g3⟩ := ih (fun j hj => h j (by simp [hj]))
    refine ⟨(b, i.typeUri, []) :: zs, ?_, by simp [g2], ?_⟩
    · have h0 : natToStr ([] : List Str).length = t!"0" := by decide
      rw [zeroArgs, nameOf_of hb, ok_bind, g1, List.flatMap_cons, kvArgs]
      simp only [h0, valueArgs]
      rfl
    · intro x hx
      rcases List.mem_cons.1 hx with rfl | hx
      · exact hb
      · exact g3 x hx

/-! ## assignments to a dictionary -/

theorem ofPairs_functional [DecidableEq α] (l : List (α × β)) (h : ∀ k v w, (k, v) ∈ l → (k, w) ∈ l → v = w) (k : α) (v : β) :
    Dict.get? (Dict.ofPairs l) k = some v ↔ (k, v) ∈ l := by
  by_cases hx : ∃ w, (k, w) ∈ l
  · obtain ⟨w, hw⟩ := hx
    rw [ofPairs_get_of l k (some w) (fun x => ⟨fun hx => by rw [h k w x hw hx], fun e => by cases e; exact hw⟩)]
    exact ⟨fun e => by cases e; exact hw, fun hv => by rw [h k w v hw hv]⟩
  · rw [ofPairs_get_of l k none (fun x => ⟨fun hx' => absurd ⟨x, hx'⟩ hx, fun e => by cases e⟩)]
    exact ⟨fun e => by (cases e), fun hv => absurd ⟨v, hv⟩ hx⟩

theorem mem_valueArgs (a : Str) (i : Nat) (vs : List Str) (k v : Str) :
    (k, v) ∈ valueArgs a i vs ↔ ∃ j, k = valueKey a (i + j) ∧ vs[j]? = some v := by
  induction vs generalizing i with
  | nil => simp [valueArgs]
  | cons w vs ih =>
    rw [valueArgs, List.mem_cons, ih, Prod.mk.injEq]
    constructor
    · rintro (⟨rfl, rfl⟩ | ⟨j, e, hj⟩)
      · exact ⟨0, rfl, rfl⟩
      · exact ⟨j + 1, by rw [e]; congr 1; omega, by simpa using hj⟩
    · rintro ⟨j, e, hj⟩
      cases j with
      | zero => left; simp at hj; exact ⟨e, hj.symm⟩
      | succ j => right; exact ⟨j, by rw [e]; congr 1; omega, by simpa using hj⟩

/-- what is assigned for an attribute -/
def Part (a u : Str) (vs : List Str) (k v : Str) : Prop :=
  k = t!"type." ++ a ∧ v = u ∨ k = t!"count." ++ a ∧ v = natToStr vs.length ∨
    ∃ i, k = t!"value." ++ a ++ t!"." ++ natToStr (i + 1) ∧ vs[i]? = some v

theorem mem_kvArgs (x : Str × Str × List Str) (k v : Str) : (k, v) ∈ kvArgs x ↔ Part x.1 x.2.1 x.2.2 k v := by
  rw [kvArgs, Part, List.mem_append, mem_valueArgs]
  simp only [List.mem_cons, List.not_mem_nil, or_false, Prod.mk.injEq, or_assoc]
  have : ∀ j, valueKey x.1 (1 + j) = t!"value." ++ x.1 ++ t!"." ++ natToStr (j + 1) := fun j => by rw [Nat.add_comm]; rfl
  simp only [this]

theorem value_inj {a b : Str} {i j : Nat} (ha : '.' ∉ a) (hb : '.' ∉ b)
    (h : t!"value." ++ a ++ t!"." ++ natToStr i = t!"value." ++ b ++ t!"." ++ natToStr j) : a = b ∧ i = j := by
  simp only [List.append_assoc] at h
  have h' := List.append_cancel_left h
  simp only [List.cons_append, List.nil_append] at h'
  have h1 := cut_append '.' a (natToStr i) ha
  rw [h', cut_append '.' b (natToStr j) hb] at h1
  simp only [Option.some.injEq, Prod.mk.injEq] at h1
  exact ⟨h1.1.symm, (natToStr_inj _ _ h1.2).symm⟩

theorem part_inj {a b u w : Str} {vs ws : List Str} {k v v' : Str} (ha : '.' ∉ a) (hb : '.' ∉ b) (h : Part a u vs k v)
    (h' : Part b w ws k v') : a = b ∧ (u = w → vs = ws → v = v') := by
  rcases h with ⟨rfl, rfl⟩ | ⟨rfl, rfl⟩ | ⟨i, rfl, hi⟩ <;> rcases h' with ⟨e, rfl⟩ | ⟨e, rfl⟩ | ⟨j, e, hj⟩
  · exact ⟨List.append_cancel_left e, fun h _ => h⟩
  · simp at e
  · simp at e
  · simp at e
  · exact ⟨List.append_cancel_left e, fun _ h => by rw [h]⟩
  · simp at e
  · simp at e
  · simp at e
  · obtain ⟨e1, e2⟩ := value_inj ha hb e
    refine ⟨e1, fun _ hv => ?_⟩
    obtain rfl : i = j := by omega
    rw [hv, hj] at hi
    cases hi; rfl

/-- the alias of a type in a list of attributes -/
def nameIn {β : Type} (N : List (Str × Str × β)) (u : Str) : Str :=
  match N.find? (fun x => x.2.1 = u) with
  | some x => x.1
  | none => []

/-- what a list of attributes gives for a type -/
def valIn {β : Type} (N : List (Str × Str × β)) (u : Str) : Option β :=
  match N.find? (fun x => x.2.1 = u) with
  | some x => some x.2.2
  | none => none

/-- a list of attributes with different aliases -/
structure Listed {β : Type} (m : NamespaceMap) (N : List (Str × Str × β)) : Prop where
  good : Good m
  alias : ∀ x ∈ N, m.nsToAlias.get? x.2.1 = some (.name x.1)
  once : ∀ x ∈ N, ∀ y ∈ N, x.2.1 = y.2.1 → x = y

theorem Listed.mem {β : Type} {m : NamespaceMap} {N : List (Str × Str × β)} (h : Listed m N) {x : Str × Str × β} (hx : x ∈ N) :
    nameIn N x.2.1 = x.1 ∧ valIn N x.2.1 = some x.2.2 := by
  unfold nameIn valIn
  cases hf : N.find? (fun y => y.2.1 = x.2.1) with
  | none =>
    rw [List.find?_eq_none] at hf
    exact absurd (by simp) (hf x hx)
  | some y =>
    have h1 := List.find?_some hf
    have h2 := List.mem_of_find?_eq_some hf
    simp only [decide_eq_true_eq] at h1
    rw [h.once y h2 x hx h1]
    exact ⟨rfl, rfl⟩

theorem Listed.val {β : Type} {m : NamespaceMap} {N : List (Str × Str × β)} (h : Listed m N) (u : Str) (b : β) :
    valIn N u = some b ↔ (nameIn N u, u, b) ∈ N := by
  constructor
  · intro hv
    unfold valIn at hv
    cases hf : N.find? (fun y => y.2.1 = u) with
    | none => rw [hf] at hv; cases hv
    | some y =>
      rw [hf] at hv
      have h1 := List.find?_some hf
      have h2 := List.mem_of_find?_eq_some hf
      simp only [decide_eq_true_eq] at h1
      cases hv
      obtain ⟨a, u', b⟩ := y
      simp only at h1
      subst h1
      have := (h.mem h2).1
      simp only at this
      rw [this]; exact h2
  · intro hm
    exact (h.mem hm).2

theorem Listed.names {β : Type} {m : NamespaceMap} {N : List (Str × Str × β)} (h : Listed m N) :
    Names (nameIn N) (fun u => (valIn N u).isSome = true) := by
  have key : ∀ u, (valIn N u).isSome = true → m.nsToAlias.get? u = some (.name (nameIn N u)) := by
    intro u hu
    obtain ⟨b, hb⟩ := Option.isSome_iff_exists.1 hu
    exact h.alias _ ((h.val u b).1 hb)
  refine ⟨fun u hu => h.good.nameable (key u hu), fun u v hu hv e => ?_⟩
  have h1 := key u hu
  have h2 := key v hv
  rw [e] at h1
  exact h.good.inj h1 h2

theorem kvAll_functional {m : NamespaceMap} {N : List (Str × Str × List Str)} (h : Listed m N) (k v w : Str)
    (hv : (k, v) ∈ N.flatMap kvArgs) (hw : (k, w) ∈ N.flatMap kvArgs) : v = w := by
  rw [List.mem_flatMap] at hv hw
  obtain ⟨x, hx, hv⟩ := hv
  obtain ⟨y, hy, hw⟩ := hw
  rw [mem_kvArgs] at hv hw
  have hdx := (h.good.nameable (h.alias x hx)).2.1
  have hdy := (h.good.nameable (h.alias y hy)).2.1
  obtain ⟨e1, e2⟩ := part_inj hdx hdy hv hw
  have hu : x.2.1 = y.2.1 := h.good.inj (h.alias x hx) (by rw [e1]; exact h.alias y hy)
  have := h.once x hx y hy hu
  subst this
  exact e2 rfl rfl

/-- the arguments of a fetch response or a store request -/
theorem kv_holds {m : NamespaceMap} {N : List (Str × Str × List Str)} (h : Listed m N) (base : Dict Str Str)
    (hb : ∀ k v, base.get? k = some v → k = t!"mode" ∨ k = t!"update_url") :
    Holds (Dict.update base (Dict.ofPairs (N.flatMap kvArgs))) (fun k v => base.get? k = some v) (nameIn N) (valIn N) := by
  intro k v
  have hget : (Dict.update base (Dict.ofPairs (N.flatMap kvArgs))).get? k =
      (Dict.get? (Dict.ofPairs (N.flatMap kvArgs)) k).or (base.get? k) := by
    rw [Dict.get?_update_WF _ _ (Dict.WF_ofPairs _)]
    cases Dict.get? (Dict.ofPairs (N.flatMap kvArgs)) k <;> rfl
  have hmem : (k, v) ∈ N.flatMap kvArgs ↔ ∃ u vs, valIn N u = some vs ∧ Part (nameIn N u) u vs k v := by
    rw [List.mem_flatMap]
    constructor
    · rintro ⟨x, hx, hp⟩
      exact ⟨x.2.1, x.2.2, (h.mem hx).2, by rw [(h.mem hx).1]; exact (mem_kvArgs _ _ _).1 hp⟩
    · rintro ⟨u, vs, hv, hp⟩
      exact ⟨_, (h.val u vs).1 hv, (mem_kvArgs _ _ _).2 hp⟩
  have hfun := ofPairs_functional _ (kvAll_functional h) k
  rw [hget]
  change _ ↔ _ ∨ ∃ u vs, valIn N u = some vs ∧ Part (nameIn N u) u vs k v
  rw [← hmem]
  cases hg : Dict.get? (Dict.ofPairs (N.flatMap kvArgs)) k with
  | some w =>
    have hw := (hfun w).1 hg
    have hno : base.get? k = none := by
      cases hbk : base.get? k with
      | none => rfl
      | some z =>
        obtain ⟨x, -, hp⟩ := List.mem_flatMap.1 hw
        rw [mem_kvArgs] at hp
        rcases hb k z hbk with rfl | rfl <;> rcases hp with ⟨e, -⟩ | ⟨e, -⟩ | ⟨i, e, -⟩ <;> simp at e
    rw [hno]
    simp only [Option.some_or, Option.some.injEq]
    constructor
    · rintro rfl; exact .inr hw
    · rintro (hv | hv)
      · simp only [hno] at hv; cases hv
      · exact kvAll_functional h k w v hw hv
  | none =>
    simp only [Option.none_or]
    constructor
    · exact .inl
    · rintro (hv | hv)
      · exact hv
      · rw [(hfun v).2 hv] at hg; cases hg

/-- such arguments are understood -/
theorem holds_parse (X : ExtraDigits) {q : Dict Str Str} {other : Str → Str → Prop} {name : Str → Str}
    {vals : Str → Option (List Str)} (h : Holds q other name vals) (hn : Names name (fun u => (vals u).isSome = true))
    (ho : ∀ k v, other k v → k = t!"mode" ∨ k = t!"update_url") {mode : Str} (hm : other t!"mode" mode) (hw : Dict.WF q) :
    ∃ d, kvParse X mode [] q = .ok d ∧ Dict.WF d ∧ ∀ u, d.get? u = vals u := by
  have hdot : ∀ u vs, vals u = some vs → '.' ∉ name u := fun u vs hv => (hn.1 u (by simp [hv])).2.1
  have htype : ∀ a u, typeOf q a = some u ↔ (vals u).isSome = true ∧ a = name u := by
    intro a u
    rw [typeOf, h]
    constructor
    · rintro (ho' | ⟨w, vs, hv, ⟨e, rfl⟩ | ⟨e, -⟩ | ⟨i, e, -⟩⟩)
      · rcases ho _ _ ho' with e | e <;> simp at e
      · exact ⟨by simp [hv], List.append_cancel_left e⟩
      · simp at e
      · simp at e
    · rintro ⟨hv, rfl⟩
      obtain ⟨vs, hv⟩ := Option.isSome_iff_exists.1 hv
      exact .inr ⟨u, vs, hv, .inl ⟨rfl, rfl⟩⟩
  have hcount : ∀ u vs, vals u = some vs → q.get? (t!"count." ++ name u) = some (natToStr vs.length) := by
    intro u vs hv
    rw [h]
    exact .inr ⟨u, vs, hv, .inr (.inl ⟨rfl, rfl⟩)⟩
  have hvalue : ∀ u vs, vals u = some vs → ∀ i v, q.get? (t!"value." ++ name u ++ t!"." ++ natToStr (i + 1)) = some v ↔ vs[i]? = some v := by
    intro u vs hv i v
    rw [h]
    constructor
    · rintro (ho' | ⟨w, ws, hw', ⟨e, -⟩ | ⟨e, -⟩ | ⟨j, e, hj⟩⟩)
      · rcases ho _ _ ho' with e | e <;> simp at e
      · simp at e
      · simp at e
      · obtain ⟨e1, e2⟩ := value_inj (hdot u vs hv) (hdot w ws hw') e
        have := hn.2 u w (by simp [hv]) (by simp [hw']) e1
        subst this
        rw [hv] at hw'; cases hw'
        obtain rfl : i = j := by omega
        exact hj
    · intro hi
      exact .inr ⟨u, vs, hv, .inr (.inr ⟨i, rfl, hi⟩)⟩
  have hare : ∀ u vs, vals u = some vs → ∀ ws, ValuesAre X q (name u) ws ↔ ws = vs := by
    intro u vs hv ws
    have hp : parseInt X (natToStr vs.length) = .ok (vs.length : Int) := parseInt_intToStr X (vs.length : Int)
    constructor
    · rintro (⟨e, -⟩ | ⟨s, n, e1, e2, e3, e4⟩)
      · rw [hcount u vs hv] at e; cases e
      · rw [hcount u vs hv] at e1; cases e1
        rw [hp] at e2; cases e2
        apply List.ext_getElem?
        intro i
        cases hi : ws[i]? with
        | some v => exact ((hvalue u vs hv i v).1 (e4 i v hi)).symm
        | none =>
          rw [List.getElem?_eq_none_iff] at hi
          symm
          rw [List.getElem?_eq_none_iff]
          simp only [Int.toNat_natCast] at e3
          omega
    · rintro rfl
      right
      exact ⟨_, _, hcount u _ hv, hp, by simp, fun i v hi => (hvalue u _ hv i v).2 hi⟩
  have hok : ValuesOk X mode q := by
    refine ⟨(h _ _).2 (.inl hm), ⟨?_, ?_⟩, ?_⟩
    · intro a u ha
      obtain ⟨h1, rfl⟩ := (htype a u).1 ha
      exact hn.1 u h1
    · intro a b u ha hb
      rw [((htype a u).1 ha).2, ((htype b u).1 hb).2]
    · intro a u ha
      obtain ⟨h1, rfl⟩ := (htype a u).1 ha
      obtain ⟨vs, hv⟩ := Option.isSome_iff_exists.1 h1
      exact ⟨vs, (hare u vs hv vs).2 rfl⟩
  obtain ⟨h1, h2⟩ := kvParse_iff X mode q hw
  obtain ⟨d, hd⟩ := h1.2 hok
  obtain ⟨g1, g2⟩ := h2 d hd
  refine ⟨d, hd, g1, fun u => Option.ext fun vs => ?_⟩
  rw [g2]
  constructor
  · rintro ⟨a, ha, hv⟩
    obtain ⟨h3, rfl⟩ := (htype a u).1 ha
    obtain ⟨ws, hws⟩ := Option.isSome_iff_exists.1 h3
    rw [(hare u ws hws vs).1 hv]; exact hws
  · intro hv
    exact ⟨name u, (htype _ u).2 ⟨by simp [hv], rfl⟩, (hare u vs hv vs).2 rfl⟩

/-! ## fetch requests -/

theorem mem_listArgs (key : Str) (l : List Str) (k v : Str) : (k, v) ∈ listArgs key l ↔ k = key ∧ l ≠ [] ∧ v = join t!"," l := by
  unfold listArgs
  cases l with
  | nil => simp
  | cons a l => simp

theorem mem_attrArgs (x : Str × Str × AttrInfo) (k v : Str) : (k, v) ∈ attrArgs x ↔
    k = t!"type." ++ x.1 ∧ v = x.2.1 ∨ x.2.2.count ≠ .num 1 ∧ k = t!"count." ++ x.1 ∧ v = x.2.2.count.text := by
  unfold attrArgs
  split
  · next h => simp [h]
  · next h => simp [h, or_comm]

/-- the arguments of a fetch request -/
theorem fetch_asks' {r : FetchRequest} (hr : Made r) {args : Dict Str Str} (h : r.getExtensionArgs = .ok args) :
    ∃ name n, (named {} r.requested = .ok n ∧ ∀ x ∈ n, name x.2.1 = x.1) ∧ Dict.WF args ∧ Names name (fun u => (r.requested.get? u).isSome = true) ∧
      (∀ u i, r.requested.get? u = some i → (∀ a, i.alias = some a → name u = a) ∧
        (i.alias = none → ∃ j, name u = t!"ext" ++ natToStr j)) ∧ Asks args name r := by
  unfold FetchRequest.getExtensionArgs at h
  obtain ⟨n, h1, h⟩ := bind_eq_ok.1 h
  cases h
  obtain ⟨m, g1, -, g2, g3⟩ := named_good r.requested good_empty (by
    rintro ⟨u, i⟩ hx a ha
    exact (hr.alias u i a (Dict.get?_of_mem _ hr.wf _ _ hx) ha).1) h1
  have hreq : ∀ u i, r.requested.get? u = some i ↔ (u, i) ∈ n.map (·.2) := by
    intro u i
    rw [g2]
    exact ⟨fun h => Dict.get?_mem _ _ _ h, fun h => Dict.get?_of_mem _ hr.wf _ _ h⟩
  have hl : Listed m n := by
    refine ⟨g1, fun x hx => (g3 x hx).1, ?_⟩
    intro x hx y hy e
    have e1 := (g3 x hx).1
    have e2 := (g3 y hy).1
    rw [e, e2] at e1
    have h1 : y.1 = x.1 := by simpa using e1
    have i1 := (hreq x.2.1 x.2.2).2 (List.mem_map.2 ⟨x, hx, rfl⟩)
    have i2 := (hreq y.2.1 y.2.2).2 (List.mem_map.2 ⟨y, hy, rfl⟩)
    rw [e, i2] at i1
    have h3 : y.2.2 = x.2.2 := by simpa using i1
    exact Prod.ext h1.symm (Prod.ext e h3.symm)
  have hval : ∀ u i, valIn n u = some i ↔ r.requested.get? u = some i := by
    intro u i
    rw [hl.val, hreq, List.mem_map]
    constructor
    · intro hm; exact ⟨_, hm, rfl⟩
    · rintro ⟨x, hx, e⟩
      obtain ⟨a, u', i'⟩ := x
      simp only [Prod.mk.injEq] at e
      obtain ⟨rfl, rfl⟩ := e
      have := (hl.mem hx).1
      simp only at this
      rw [this]; exact hx
  have hsome : ∀ u, (valIn n u).isSome = true ↔ (r.requested.get? u).isSome = true := by
    intro u
    rw [Option.isSome_iff_exists, Option.isSome_iff_exists]
    exact ⟨fun ⟨i, hi⟩ => ⟨i, (hval u i).1 hi⟩, fun ⟨i, hi⟩ => ⟨i, (hval u i).2 hi⟩⟩
  refine ⟨nameIn n, n, ⟨h1, fun x hx => (hl.mem hx).1⟩, Dict.WF_ofPairs _, ?_, ?_, ?_⟩
  · have := hl.names
    refine ⟨fun u hu => this.1 u ((hsome u).2 hu), fun u v hu hv => this.2 u v ((hsome u).2 hu) ((hsome v).2 hv)⟩
  · intro u i hu
    have := (hl.val u i).1 ((hval u i).2 hu)
    exact ⟨fun a ha => (g3 _ this).2 a ha, fun ha => named_fresh r.requested hr.wf good_empty (by simp [Dict.get?]) (by
      rintro ⟨u, i⟩ hx a ha
      exact (hr.alias u i a (Dict.get?_of_mem _ hr.wf _ _ hx) ha).1) h1 _ this ha⟩
  · -- the lists
    have hlist : ∀ b : Bool, (n.filter (fun x => x.2.2.required == b)).map (·.1) =
        (r.requested.filter (fun x => x.2.required == b)).map (fun x => nameIn n x.1) := by
      intro b
      rw [← g2, List.filter_map, List.map_map]
      apply List.map_congr_left
      intro x hx
      exact ((hl.mem (List.mem_filter.1 hx).1).1).symm
    have hreqd : (n.filter (·.2.2.required)).map (·.1) = (r.requested.filter (·.2.required)).map (fun x => nameIn n x.1) := by
      have := hlist true
      simpa using this
    have hifav : (n.filter (!·.2.2.required)).map (·.1) = (r.requested.filter (!·.2.required)).map (fun x => nameIn n x.1) := by
      have := hlist false
      simpa using this
    rw [hreqd, hifav]
    have hmem : ∀ k v, (k, v) ∈ [(t!"mode", t!"fetch_request")] ++ n.flatMap attrArgs ++
        listArgs t!"required" ((r.requested.filter (·.2.required)).map (fun x => nameIn n x.1)) ++
        listArgs t!"if_available" ((r.requested.filter (!·.2.required)).map (fun x => nameIn n x.1)) ↔
        (k = t!"mode" ∧ v = t!"fetch_request" ∨
        (∃ u i, r.requested.get? u = some i ∧ (k = t!"type." ++ nameIn n u ∧ v = u ∨
          i.count ≠ .num 1 ∧ k = t!"count." ++ nameIn n u ∧ v = i.count.text)) ∨
        (k = t!"required" ∧ (r.requested.filter (·.2.required)).map (fun x => nameIn n x.1) ≠ [] ∧
          v = join t!"," ((r.requested.filter (·.2.required)).map (fun x => nameIn n x.1))) ∨
        (k = t!"if_available" ∧ (r.requested.filter (!·.2.required)).map (fun x => nameIn n x.1) ≠ [] ∧
          v = join t!"," ((r.requested.filter (!·.2.required)).map (fun x => nameIn n x.1)))) := by
      intro k v
      rw [List.mem_append, List.mem_append, List.mem_append, mem_listArgs, mem_listArgs, List.mem_flatMap, List.mem_singleton,
        Prod.mk.injEq, or_assoc, or_assoc]
      refine or_congr Iff.rfl (or_congr ?_ Iff.rfl)
      constructor
      · rintro ⟨x, hx, hp⟩
        rw [mem_attrArgs] at hp
        exact ⟨x.2.1, x.2.2, (hval _ _).1 (hl.mem hx).2, by rw [(hl.mem hx).1]; exact hp⟩
      · rintro ⟨u, i, hu, hp⟩
        exact ⟨_, (hl.val u i).1 ((hval u i).2 hu), (mem_attrArgs _ _ _).2 hp⟩
    intro k v
    rw [ofPairs_functional _ ?_ k v, hmem]
    intro k v w hv hw
    rw [hmem] at hv hw
    have hname : ∀ u i u' i', r.requested.get? u = some i → r.requested.get? u' = some i' → nameIn n u = nameIn n u' →
        u = u' ∧ i = i' := by
      intro u i u' i' hu hu' e
      have e1 := hl.names.2 u u' ((hsome u).2 (by rw [hu]; rfl)) ((hsome u').2 (by rw [hu']; rfl)) e
      subst e1
      rw [hu] at hu'; cases hu'; exact ⟨rfl, rfl⟩
    rcases hv with ⟨rfl, rfl⟩ | ⟨u, i, hu, ⟨rfl, rfl⟩ | ⟨-, rfl, rfl⟩⟩ | ⟨rfl, -, rfl⟩ | ⟨rfl, -, rfl⟩ <;>
    rcases hw with ⟨e, rfl⟩ | ⟨u', i', hu', ⟨e, rfl⟩ | ⟨-, e, rfl⟩⟩ | ⟨e, -, rfl⟩ | ⟨e, -, rfl⟩ <;>
    first
    | rfl
    | (simp at e; done)
    | (exact (hname _ _ _ _ hu hu' (List.append_cancel_left e)).1)
    | (rw [(hname _ _ _ _ hu hu' (List.append_cancel_left e)).2])

theorem fetch_asks {r : FetchRequest} (hr : Made r) {args : Dict Str Str} (h : r.getExtensionArgs = .ok args) :
    ∃ name, Dict.WF args ∧ Names name (fun u => (r.requested.get? u).isSome = true) ∧
      (∀ u i, r.requested.get? u = some i → (∀ a, i.alias = some a → name u = a) ∧
        (i.alias = none → ∃ j, name u = t!"ext" ++ natToStr j)) ∧ Asks args name r := by
  obtain ⟨name, n, -, h1⟩ := fetch_asks' hr h
  exact ⟨name, h1⟩

/-- the aliases of a response are those of the request -/
theorem checkAttrs_named (d : Data) (l : List (Str × AttrInfo)) {m : NamespaceMap} (h : Good m)
    (hk : ∀ x ∈ l, x.2.typeUri = x.1) (hc : ∀ x ∈ l, ∀ a, x.2.alias = some a → ',' ∉ a) {n : List (Str × Str × AttrInfo)}
    (hn : named m l = .ok n) :
    ((∃ x ∈ l, tooMany x.2.count ((d.get? x.1).getD []).length = true) ∧ checkAttrs d m (l.map (·.2)) = .error .axError) ∨
    ((∀ x ∈ l, tooMany x.2.count ((d.get? x.1).getD []).length = false) ∧ ∃ m', checkAttrs d m (l.map (·.2)) = .ok m' ∧
      Good m' ∧ (∀ w x, m.nsToAlias.get? w = some x → m'.nsToAlias.get? w = some x) ∧
      ∀ x ∈ n, m'.nsToAlias.get? x.2.1 = some (.name x.1)) := by
  induction l generalizing m n with
  | nil => cases hn; exact .inr ⟨by simp, m, rfl, h, fun _ _ h => h, by simp⟩
  | cons y l ih =>
    obtain ⟨u, i⟩ := y
    have hki : i.typeUri = u := hk (u, i) (by simp)
    rw [named] at hn
    obtain ⟨m1, h1, hn⟩ := bind_eq_ok.1 hn
    obtain ⟨g1, ⟨b, g2, g3⟩, g4⟩ := pick_good h (hc (u, i) (by simp)) h1
    obtain ⟨a, h2, hn⟩ := bind_eq_ok.1 hn
    rw [nameOf_of g2] at h2; cases h2
    obtain ⟨n', h3, hn⟩ := bind_eq_ok.1 hn
    cases hn
    rw [List.map_cons, checkAttrs]
    simp only [hki, h1, ok_bind]
    cases ht : tooMany i.count ((d.get? u).getD []).length with
    | true =>
      left
      exact ⟨⟨(u, i), by simp, ht⟩, by simp⟩
    | false =>
      simp only [Bool.false_eq_true, if_false]
      rcases ih g1 (fun x hx => hk x (by simp [hx])) (fun x hx => hc x (by simp [hx])) h3 with ⟨⟨x, hx, e1⟩, e2⟩ | ⟨e1, m', e2, e3, e4, e5⟩
      · left; exact ⟨⟨x, by simp [hx], e1⟩, e2⟩
      · right
        refine ⟨?_, m', e2, e3, fun w x hx => e4 w x (g4 w x hx), ?_⟩
        · intro x hx
          rcases List.mem_cons.1 hx with rfl | hx
          · exact ht
          · exact e1 x hx
        · intro x hx
          rcases List.mem_cons.1 hx with rfl | hx
          · exact e4 _ _ g2
          · exact e5 x hx

theorem base_get (mode : Str) (u : Option Str) (k v : Str) :
    Dict.get? ([(t!"mode", mode)] ++ updateArgs u) k = some v ↔
      k = t!"mode" ∧ v = mode ∨ k = t!"update_url" ∧ v ≠ [] ∧ u = some v := by
  have hne : ¬ (t!"mode" : Str) = t!"update_url" := by decide
  unfold updateArgs
  split
  · next c cs =>
    simp only [List.cons_append, List.nil_append, Dict.get?_cons, Dict.get?_nil]
    by_cases h1 : t!"mode" = k
    · subst h1
      rw [if_pos rfl]
      constructor
      · intro e; cases e; exact .inl ⟨rfl, rfl⟩
      · rintro (⟨-, rfl⟩ | ⟨e, -⟩)
        · rfl
        · exact absurd e hne
    · have h1' : ¬ k = t!"mode" := fun e => h1 e.symm
      simp only [h1, h1', if_false, false_and, false_or]
      by_cases h2 : t!"update_url" = k
      · subst h2; simp only [if_true, Option.some.injEq, true_and]
        constructor
        · rintro rfl; simp
        · rintro ⟨-, rfl⟩; rfl
      · have h2' : ¬ k = t!"update_url" := fun e => h2 e.symm
        simp [h2, h2']
  · next hx =>
    simp only [List.append_nil, Dict.get?_cons, Dict.get?_nil]
    have hno : ¬ (k = t!"update_url" ∧ v ≠ [] ∧ u = some v) := by
      rintro ⟨-, h1, rfl⟩
      obtain ⟨c, cs, rfl⟩ := List.exists_cons_of_ne_nil h1
      exact hx c cs rfl
    by_cases h1 : t!"mode" = k
    · subst h1
      rw [if_pos rfl]
      constructor
      · intro e; cases e; exact .inl ⟨rfl, rfl⟩
      · rintro (⟨-, rfl⟩ | ⟨e, -⟩)
        · rfl
        · exact absurd e hne
    · have h1' : ¬ k = t!"mode" := fun e => h1 e.symm
      simp only [h1, h1', if_false, false_and, false_or]
      simp only [reduceCtorEq, false_iff]
      exact hno

/-- the update URL among arguments -/
theorem holds_update {q : Dict Str Str} {update : Option Str} {name : Str → Str} {vals : Str → Option (List Str)}
    (h : Holds q (fun k v => k = t!"mode" ∧ v = t!"fetch_response" ∨ k = t!"update_url" ∧ v ≠ [] ∧ update = some v) name vals) :
    q.get? t!"update_url" = update.filter (fun u => !u.isEmpty) := by
  have key : ∀ v, q.get? t!"update_url" = some v ↔ v ≠ [] ∧ update = some v := by
    intro v
    rw [h]
    constructor
    · rintro ((⟨e, -⟩ | ⟨-, e⟩) | ⟨u, vs, -, ⟨e, -⟩ | ⟨e, -⟩ | ⟨i, e, -⟩⟩)
      · exact absurd e (by decide)
      · exact e
      · simp at e
      · simp at e
      · simp at e
    · intro e; exact .inl (.inr ⟨rfl, e⟩)
  cases update with
  | none =>
    cases hg : q.get? t!"update_url" with
    | none => rfl
    | some v => have := (key v).1 hg; simp at this
  | some u =>
    by_cases hu : u = []
    · subst hu
      cases hg : q.get? t!"update_url" with
      | none => rfl
      | some v => have := (key v).1 hg; simp at this
    · have : u.isEmpty = false := by simpa using hu
      simp only [Option.filter, this, Bool.not_false, if_true]
      exact (key u).2 ⟨hu, rfl⟩

theorem parseInt_unlimited {X : ExtraDigits} (h : X 'u' = none) : parseInt X t!"unlimited" = .error .valueError := by
  have h1 : strip t!"unlimited" = t!"unlimited" := by decide
  rw [parseInt, h1]
  simp [intDigits, digitVal, h]

theorem namesIn_joined (l : List Str) (h : ∀ a ∈ l, ',' ∉ a ∧ a ≠ []) (o : Option Str)
    (ho : ∀ v, o = some v ↔ l ≠ [] ∧ v = join t!"," l) : namesIn o = l := by
  cases l with
  | nil =>
    cases o with
    | none => rfl
    | some v => exact absurd rfl ((ho v).1 rfl).1
  | cons f fs =>
    have h1 := splitOn_join ',' (f :: fs) (by simp) (fun p hp => (h p hp).1)
    have h2 : join t!"," (f :: fs) ≠ [] := by
      have := (h f (by simp)).2
      cases fs with
      | nil => simpa [join] using this
      | cons g gs => simp [join]
    rw [(ho _).2 ⟨by simp, rfl⟩, namesIn, if_neg h2]
    exact h1

theorem intToStr_ne (n : Int) : intToStr n ≠ [] := by
  cases n with
  | ofNat n => exact (natToStr_spec n).1
  | negSucc n => simp [intToStr]

/-- the arguments of a fetch request are understood -/
theorem asks_parse {X : ExtraDigits} (hX : X 'u' = none) {q : Dict Str Str} (hq : Dict.WF q) {name : Str → Str}
    {r : FetchRequest} (hr : Made r) (hn : Names name (fun u => (r.requested.get? u).isSome = true))
    (hne : ∀ u, (r.requested.get? u).isSome = true → name u ≠ [])
    (hc : ∀ u i, r.requested.get? u = some i → Countable i.count) (h : Asks q name r) :
    ∃ r', FetchRequest.parseExtensionArgs X {} q = .ok r' ∧ r'.updateUrl = none ∧ Dict.WF r'.requested ∧
      ∀ u, r'.requested.get? u = (r.requested.get? u).map (fun i => { i with alias := some (name u) }) := by
  have hreq : ∀ u i, r.requested.get? u = some i ↔ (u, i) ∈ r.requested := fun u i =>
    ⟨fun h => Dict.get?_mem _ _ _ h, fun h => Dict.get?_of_mem _ hr.wf _ _ h⟩
  have htype : ∀ a u, typeOf q a = some u ↔ (r.requested.get? u).isSome = true ∧ a = name u := by
    intro a u
    rw [typeOf, h]
    constructor
    · rintro (⟨e, -⟩ | ⟨w, i, hw, ⟨e, rfl⟩ | ⟨-, e, -⟩⟩ | ⟨e, -⟩ | ⟨e, -⟩)
      · simp at e
      · exact ⟨by simp [hw], List.append_cancel_left e⟩
      · simp at e
      · simp at e
      · simp at e
    · rintro ⟨hv, rfl⟩
      obtain ⟨i, hv⟩ := Option.isSome_iff_exists.1 hv
      exact .inr (.inl ⟨u, i, hv, .inl ⟨rfl, rfl⟩⟩)
  have hcount : ∀ u i, r.requested.get? u = some i → ∀ v, q.get? (t!"count." ++ name u) = some v ↔ i.count ≠ .num 1 ∧ v = i.count.text := by
    intro u i hu v
    rw [h]
    constructor
    · rintro (⟨e, -⟩ | ⟨w, j, hw, ⟨e, rfl⟩ | ⟨h1, e, h2⟩⟩ | ⟨e, -⟩ | ⟨e, -⟩)
      · simp at e
      · simp at e
      · have := hn.2 u w (by simp [hu]) (by simp [hw]) (List.append_cancel_left e)
        subst this
        rw [hu] at hw; cases hw
        exact ⟨h1, h2⟩
      · simp at e
      · simp at e
    · rintro ⟨h1, rfl⟩
      exact .inr (.inl ⟨u, i, hu, .inr ⟨h1, rfl, rfl⟩⟩)
  have hreqd : ∀ v, q.get? t!"required" = some v ↔ (r.requested.filter (·.2.required)).map (fun x => name x.1) ≠ [] ∧
      v = join t!"," ((r.requested.filter (·.2.required)).map (fun x => name x.1)) := by
    intro v
    rw [h]
    constructor
    · rintro (⟨e, -⟩ | ⟨w, j, hw, ⟨e, rfl⟩ | ⟨h1, e, h2⟩⟩ | ⟨-, h1⟩ | ⟨e, -⟩)
      · simp at e
      · simp at e
      · simp at e
      · exact h1
      · simp at e
    · intro h1; exact .inr (.inr (.inl ⟨rfl, h1⟩))
  have hifav : ∀ v, q.get? t!"if_available" = some v ↔ (r.requested.filter (!·.2.required)).map (fun x => name x.1) ≠ [] ∧
      v = join t!"," ((r.requested.filter (!·.2.required)).map (fun x => name x.1)) := by
    intro v
    rw [h]
    constructor
    · rintro (⟨e, -⟩ | ⟨w, j, hw, ⟨e, rfl⟩ | ⟨h1, e, h2⟩⟩ | ⟨e, -⟩ | ⟨-, h1⟩)
      · simp at e
      · simp at e
      · simp at e
      · simp at e
      · exact h1
    · intro h1; exact .inr (.inr (.inr ⟨rfl, h1⟩))
  have hupd : q.get? t!"update_url" = none := by
    cases hg : q.get? t!"update_url" with
    | none => rfl
    | some v =>
      rw [h] at hg
      rcases hg with ⟨e, -⟩ | ⟨w, j, hw, ⟨e, rfl⟩ | ⟨h1, e, h2⟩⟩ | ⟨e, -⟩ | ⟨e, -⟩ <;> simp at e
  have hgood : ∀ l : List (Str × AttrInfo), (∀ x ∈ l, x ∈ r.requested) → ∀ a ∈ l.map (fun x => name x.1), ',' ∉ a ∧ a ≠ [] := by
    intro l hl a ha
    obtain ⟨x, hx, rfl⟩ := List.mem_map.1 ha
    have := (hreq x.1 x.2).2 (hl x hx)
    exact ⟨(hn.1 x.1 (by simp [this])).1, hne x.1 (by simp [this])⟩
  have hN1 : namesIn (q.get? t!"required") = (r.requested.filter (·.2.required)).map (fun x => name x.1) :=
    namesIn_joined _ (hgood _ (fun x hx => (List.mem_filter.1 hx).1)) _ hreqd
  have hN2 : namesIn (q.get? t!"if_available") = (r.requested.filter (!·.2.required)).map (fun x => name x.1) :=
    namesIn_joined _ (hgood _ (fun x hx => (List.mem_filter.1 hx).1)) _ hifav
  have hcis : ∀ u i, r.requested.get? u = some i → CountIs X q (name u) i.count := by
    intro u i hu
    by_cases h1 : i.count = .num 1
    · left
      refine ⟨.inl ?_, h1⟩
      cases hg : q.get? (t!"count." ++ name u) with
      | none => rfl
      | some v => exact absurd h1 ((hcount u i hu v).1 hg).1
    · right
      refine ⟨i.count.text, (hcount u i hu _).2 ⟨h1, rfl⟩, ?_⟩
      rcases hc u i hu with e | ⟨n, hn', e⟩
      · rw [e]
        refine ⟨by simp [Count.text], .inr ⟨?_, rfl, rfl⟩⟩
        intro n hn'
        rw [Count.text, parseInt_unlimited hX] at hn'; cases hn'
      · rw [e]
        exact ⟨intToStr_ne n, .inl ⟨n, parseInt_intToStr X n, hn', rfl⟩⟩
  have hin : ∀ u i, r.requested.get? u = some i → ∀ b : Bool, name u ∈ (r.requested.filter (fun x => x.2.required == b)).map (fun x => name x.1) ↔
      i.required = b := by
    intro u i hu b
    constructor
    · intro hm
      obtain ⟨x, hx, e⟩ := List.mem_map.1 hm
      obtain ⟨hx1, hx2⟩ := List.mem_filter.1 hx
      have hx1' := (hreq x.1 x.2).2 hx1
      have := hn.2 x.1 u (by simp [hx1']) (by simp [hu]) e
      rw [this, hu] at hx1'
      cases hx1'
      simpa using hx2
    · intro hb
      exact List.mem_map.2 ⟨(u, i), List.mem_filter.2 ⟨(hreq u i).1 hu, by simp [hb]⟩, rfl⟩
  have hin1 : ∀ u i, r.requested.get? u = some i → (name u ∈ namesIn (q.get? t!"required") ↔ i.required = true) := by
    intro u i hu
    rw [hN1]
    have := hin u i hu true
    simpa using this
  have hin2 : ∀ u i, r.requested.get? u = some i → (name u ∈ namesIn (q.get? t!"if_available") ↔ i.required = false) := by
    intro u i hu
    rw [hN2]
    have := hin u i hu false
    simpa using this
  have hok : FetchOk X q := by
    refine ⟨(h _ _).2 (.inl ⟨rfl, rfl⟩), ⟨?_, ?_⟩, ?_, ?_, ?_⟩
    · intro a u ha
      obtain ⟨h1, rfl⟩ := (htype a u).1 ha
      exact hn.1 u h1
    · intro a b u ha hb
      rw [((htype a u).1 ha).2, ((htype b u).1 hb).2]
    · intro a u ha
      obtain ⟨h1, rfl⟩ := (htype a u).1 ha
      obtain ⟨i, hi⟩ := Option.isSome_iff_exists.1 h1
      exact ⟨_, hcis u i hi⟩
    · intro a u ha
      obtain ⟨h1, rfl⟩ := (htype a u).1 ha
      obtain ⟨i, hi⟩ := Option.isSome_iff_exists.1 h1
      cases hb : i.required with
      | true => exact .inl ((hin1 u i hi).2 hb)
      | false => exact .inr ((hin2 u i hi).2 hb)
    · intro a ha
      have : ∃ x ∈ r.requested, a = name x.1 := by
        rcases ha with ha | ha
        · rw [hN1] at ha
          obtain ⟨x, hx, rfl⟩ := List.mem_map.1 ha
          exact ⟨x, (List.mem_filter.1 hx).1, rfl⟩
        · rw [hN2] at ha
          obtain ⟨x, hx, rfl⟩ := List.mem_map.1 ha
          exact ⟨x, (List.mem_filter.1 hx).1, rfl⟩
      obtain ⟨x, hx, rfl⟩ := this
      exact ⟨x.1, (htype _ _).2 ⟨by rw [(hreq x.1 x.2).2 hx]; rfl, rfl⟩⟩
  obtain ⟨h1, h2⟩ := fetchParse_iff X q hq
  obtain ⟨r', hr'⟩ := h1.2 hok
  obtain ⟨g1, g2, g3⟩ := h2 r' hr'
  refine ⟨r', hr', by rw [g2, hupd], g1, fun u => Option.ext fun j => ?_⟩
  rw [g3, Option.map_eq_some_iff]
  constructor
  · rintro ⟨a, c, ha, hca, rfl⟩
    obtain ⟨h3, rfl⟩ := (htype a u).1 ha
    obtain ⟨i, hi⟩ := Option.isSome_iff_exists.1 h3
    refine ⟨i, hi, ?_⟩
    rw [countIs_unique hca (hcis u i hi)]
    have hk := hr.key u i hi
    obtain ⟨t, c, b, al⟩ := i
    simp only at hk
    subst hk
    simp only [AttrInfo.mk.injEq, true_and, and_true]
    have := hin1 t _ hi
    simp only at this
    cases b with
    | true => rw [eq_comm, decide_eq_true_eq]; exact this.2 rfl
    | false => rw [eq_comm, decide_eq_false_iff_not]; intro hx; cases this.1 hx
  · rintro ⟨i, hi, rfl⟩
    refine ⟨name u, i.count, (htype _ u).2 ⟨by simp [hi], rfl⟩, hcis u i hi, ?_⟩
    have hk := hr.key u i hi
    obtain ⟨t, c, b, al⟩ := i
    simp only at hk
    subst hk
    simp only [AttrInfo.mk.injEq, true_and, and_true]
    have := hin1 t _ hi
    simp only at this
    cases b with
    | true => rw [eq_comm, decide_eq_true_eq]; exact this.2 rfl
    | false => rw [eq_comm, decide_eq_false_iff_not]; intro hx; cases this.1 hx

end Ax
