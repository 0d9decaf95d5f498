import Verif.Spec.Pape
import Verif.Lemmas.AxSend
/-! # Lemmas about policy messages -/

namespace Pape
open Py Message Spec Association

theorem addOnce_mem {l : List Str} {x y : Str} : y ∈ addOnce l x ↔ y ∈ l ∨ y = x := by
  unfold addOnce
  split
  · next h =>
    rw [List.contains_iff_mem] at h
    constructor
    · exact .inl
    · rintro (h' | rfl)
      · exact h'
      · exact h
  · simp

theorem addOnce_nodup {l : List Str} (h : l.Nodup) (x : Str) : (addOnce l x).Nodup := by
  unfold addOnce
  split
  · exact h
  · next hx =>
    rw [List.nodup_append]
    refine ⟨h, by simp, ?_⟩
    intro a ha b hb e
    simp only [List.mem_cons, List.not_mem_nil, or_false] at hb
    subst hb; subst e
    exact hx (List.contains_iff_mem.2 ha)

theorem addOnce_fresh {l : List Str} {x : Str} (h : x ∉ l) : addOnce l x = l ++ [x] := by
  unfold addOnce
  rw [if_neg]
  intro h'; exact h (List.contains_iff_mem.1 h')

theorem addOnce_there {l : List Str} {x : Str} (h : x ∈ l) : addOnce l x = l := by
  unfold addOnce
  rw [if_pos (List.contains_iff_mem.2 h)]

theorem foldl_addOnce (l acc : List Str) : l.foldl addOnce acc = acc ++ (l.removeAll acc).eraseDups := by
  induction l generalizing acc with
  | nil => simp [List.removeAll]
  | cons x l ih =>
    rw [List.foldl_cons, ih]
    by_cases h : x ∈ acc
    · rw [addOnce_there h]
      congr 2
      simp [List.removeAll, List.filter_cons, h]
    · rw [addOnce_fresh h]
      have h1 : (x :: l).removeAll acc = x :: l.removeAll acc := by
        simp [List.removeAll, List.filter_cons, h]
      rw [h1, List.eraseDups_cons, List.append_assoc, List.singleton_append]
      congr 3
      simp only [List.removeAll, List.filter_filter]
      congr 1
      funext b
      cases hb : b == x <;> simp_all [Bool.and_comm]

theorem foldl_addOnce_nil (l : List Str) : l.foldl addOnce [] = l.eraseDups := by
  rw [foldl_addOnce]
  have : l.removeAll [] = l := by simp [List.removeAll]
  rw [this]; rfl

theorem eraseDups_nodup {l : List Str} (h : l.Nodup) : l.eraseDups = l := by
  induction l with
  | nil => rfl
  | cons x l ih =>
    rw [List.nodup_cons] at h
    rw [List.eraseDups_cons]
    have : l.filter (fun b => !b == x) = l := by
      rw [List.filter_eq_self]
      intro a ha
      simp only [Bool.not_eq_true', beq_eq_false_iff_ne, ne_eq]
      rintro rfl; exact h.1 ha
    rw [this, ih h.2]

theorem getAlias_some {m : Dict Str Str} (hw : Dict.WF m) {u a : Str} (h : getAlias m u = some a) : m.get? a = some u := by
  unfold getAlias at h
  cases hf : m.find? (fun p => p.2 = u) with
  | none => rw [hf] at h; cases h
  | some p =>
    rw [hf] at h
    cases h
    have h1 := List.find?_some hf
    have h2 := List.mem_of_find?_eq_some hf
    simp only [decide_eq_true_eq] at h1
    have := Dict.get?_of_mem m hw p.1 p.2 h2
    rw [this, h1]

theorem getAlias_none {m : Dict Str Str} {u : Str} (h : getAlias m u = none) (a : Str) : m.get? a ≠ some u := by
  intro hg
  unfold getAlias at h
  cases hf : m.find? (fun p => p.2 = u) with
  | some p => rw [hf] at h; cases h
  | none =>
    rw [List.find?_eq_none] at hf
    exact hf (a, u) (Dict.get?_mem _ _ _ hg) (by simp)

theorem generateFrom_ok {m : Dict Str Str} {n : Nat} {i : Nat} {a : Str} (h : generateFrom m i n = .ok a) :
    ∃ j, i ≤ j ∧ j < i + n ∧ a = t!"cust" ++ natToStr j ∧ m.get? a = none ∧ ∀ k, i ≤ k → k < j → m.get? (t!"cust" ++ natToStr k) ≠ none := by
  induction n generalizing i with
  | zero => cases h
  | succ n ih =>
    rw [generateFrom] at h
    split at h
    · next hh =>
      obtain ⟨j, h1, h2, h3, h4, h5⟩ := ih h
      refine ⟨j, by omega, by omega, h3, h4, ?_⟩
      intro k hk1 hk2
      by_cases e : k = i
      · subst e
        intro hn; rw [Dict.has, hn] at hh; cases hh
      · exact h5 k (by omega) hk2
    · next hh =>
      cases h
      refine ⟨i, by omega, by omega, rfl, ?_, by omega⟩
      simpa [Dict.has] using hh

theorem generateFrom_error {m : Dict Str Str} {n : Nat} {i : Nat} {e : PyErr} (h : generateFrom m i n = .error e) :
    e = .runtimeError ∧ ∀ k, i ≤ k → k < i + n → m.get? (t!"cust" ++ natToStr k) ≠ none := by
  induction n generalizing i with
  | zero => cases h; exact ⟨rfl, by omega⟩
  | succ n ih =>
    rw [generateFrom] at h
    split at h
    · next hh =>
      obtain ⟨h1, h2⟩ := ih h
      refine ⟨h1, ?_⟩
      intro k hk1 hk2
      by_cases e : k = i
      · subst e
        intro hn; rw [Dict.has, hn] at hh; cases hh
      · exact h2 k (by omega) (by omega)
    · cases h

theorem aliasesOk_default : AliasesOk defaultAliases := ⟨by decide, by decide, by decide⟩

/-- adding an alias -/
theorem addAlias_ok {m m' : Dict Str Str} (hm : AliasesOk m) {u : Str} {alias : Option Str} (h : addAlias m u alias = .ok m') :
    AliasesOk m' ∧ ∃ a, (m.get? a = none ∨ m.get? a = some u) ∧ m' = m.set a u ∧ ∀ b, alias = some b → a = b := by
  rw [addAlias] at h
  obtain ⟨a, h1, h⟩ := bind_eq_ok.1 h
  cases h
  have hfree : (m.get? a = none ∨ m.get? a = some u) ∧ ∀ b, alias = some b → a = b := by
    unfold chooseAlias at h1
    cases alias with
    | none =>
      refine ⟨?_, by simp⟩
      cases hg : getAlias m u with
      | some b => simp only [hg] at h1; cases h1; exact .inr (getAlias_some hm.wf hg)
      | none =>
        simp only [hg, generateAlias] at h1
        obtain ⟨j, -, -, -, h4, -⟩ := generateFrom_ok h1
        exact .inl h4
    | some b =>
      simp only at h1
      cases hg : m.get? b with
      | none => simp only [hg] at h1; cases h1; exact ⟨.inl hg, by simp⟩
      | some w =>
        simp only [hg] at h1
        split at h1
        · next e => cases h1; subst e; exact ⟨.inr hg, by simp⟩
        · cases h1
  have hne : ∀ b w, m.get? b = some w → (m.set a u).get? b = some w := by
    intro b w hb
    rw [Dict.get?_set]
    split
    · next e =>
      subst e
      rcases hfree.1 with h | h
      · rw [h] at hb; cases hb
      · rw [h] at hb; exact hb
    · exact hb
  exact ⟨⟨Dict.WF_set _ hm.wf _ _, hne _ _ hm.nist, hne _ _ hm.jisa⟩, a, hfree.1, rfl, hfree.2⟩

theorem set_keeps {m : Dict Str Str} {a u : Str} (h : m.get? a = none ∨ m.get? a = some u) {b w : Str} (hb : m.get? b = some w) :
    (m.set a u).get? b = some w := by
  rw [Dict.get?_set]
  split
  · next e =>
    subst e
    rcases h with h | h
    · rw [h] at hb; cases hb
    · rw [h] at hb; exact hb
  · exact hb

theorem requestOk_level {r r' : Request} (hr : RequestOk r) {u : Str} {alias : Option Str} (h : r.addAuthLevel u alias = .ok r') :
    RequestOk r' := by
  rw [Request.addAuthLevel] at h
  obtain ⟨m, h1, h⟩ := bind_eq_ok.1 h
  cases h
  obtain ⟨g1, a, g2, rfl, -⟩ := addAlias_ok hr.aliases h1
  refine ⟨g1, addOnce_nodup hr.once u, ?_⟩
  intro w hw
  rcases addOnce_mem.1 hw with hw | rfl
  · obtain ⟨b, hb⟩ := hr.named w hw
    exact ⟨b, set_keeps g2 hb⟩
  · exact ⟨a, by simp [Dict.get?_set]⟩

theorem responseOk_level {r r' : Response} (hr : ResponseOk r) {u l : Str} {alias : Option Str}
    (h : r.setAuthLevel u l alias = .ok r') : ResponseOk r' := by
  rw [Response.setAuthLevel] at h
  obtain ⟨m, h1, h⟩ := bind_eq_ok.1 h
  cases h
  obtain ⟨g1, a, g2, rfl, -⟩ := addAlias_ok hr.aliases h1
  refine ⟨g1, Dict.WF_set _ hr.wf _ _, ?_⟩
  intro w l' hw
  simp only [Dict.get?_set] at hw
  split at hw
  · next e => subst e; exact ⟨a, by simp [Dict.get?_set]⟩
  · obtain ⟨b, hb⟩ := hr.named w l' hw
    exact ⟨b, set_keeps g2 hb⟩

theorem getAlias_isSome {m : Dict Str Str} {u a : Str} (h : m.get? a = some u) : ∃ b, getAlias m u = some b := by
  cases hg : getAlias m u with
  | some b => exact ⟨b, rfl⟩
  | none => exact absurd h (getAlias_none hg a)

/-- the alias that is sent -/
def nameFor (m : Dict Str Str) (u : Str) : Str := (getAlias m u).getD []

theorem nameFor_get {m : Dict Str Str} (hw : Dict.WF m) {u a : Str} (h : m.get? a = some u) : m.get? (nameFor m u) = some u := by
  obtain ⟨b, hb⟩ := getAlias_isSome h
  rw [nameFor, hb]; exact getAlias_some hw hb

theorem aliased_ok {m : Dict Str Str} {l : List Str} (h : ∀ u ∈ l, ∃ a, m.get? a = some u) :
    aliased m l = .ok (l.map (fun u => (nameFor m u, u))) := by
  induction l with
  | nil => rfl
  | cons u l ih =>
    obtain ⟨a, ha⟩ := h u (by simp)
    obtain ⟨b, hb⟩ := getAlias_isSome ha
    rw [aliased]
    simp only [hb]
    rw [ih fun w hw => h w (by simp [hw])]
    simp [nameFor, hb]

theorem aliasedLevels_ok {m : Dict Str Str} {l : List (Str × Str)} (h : ∀ p ∈ l, ∃ a, m.get? a = some p.1) :
    aliasedLevels m l = .ok (l.map (fun p => (nameFor m p.1, p.1, p.2))) := by
  induction l with
  | nil => rfl
  | cons p l ih =>
    obtain ⟨u, v⟩ := p
    obtain ⟨a, ha⟩ := h (u, v) (by simp)
    obtain ⟨b, hb⟩ := getAlias_isSome ha
    rw [aliasedLevels]
    simp only [hb]
    rw [ih fun w hw => h w (by simp [hw])]
    simp [nameFor, hb]

theorem nsKey_inj {a b : Str} (h : nsKey a = nsKey b) : a = b := List.append_cancel_left h

theorem standsFor_eq (args : Dict Str Str) (o : Bool) (a : Str) : levelOf args o a = standsFor args o a := by
  unfold levelOf standsFor
  rw [nsKey]
  cases args.get? (t!"auth_level.ns." ++ a) with
  | some u => rfl
  | none =>
    cases o with
    | false => rfl
    | true =>
      simp only [if_true, Bool.true_eq_false, if_false, Option.none_or, defaultAliases, Dict.get?_cons, Dict.get?_nil]
      by_cases h1 : t!"nist" = a
      · subst h1; rfl
      · have h1' : ¬ a = t!"nist" := fun e => h1 e.symm
        simp only [h1, h1', if_false]
        by_cases h2 : t!"jisa" = a
        · subst h2; rfl
        · have h2' : ¬ a = t!"jisa" := fun e => h2 e.symm
          simp only [h2, h2', if_false]

theorem default_get {a w : Str} : defaultAliases.get? a = some w ↔ a = t!"nist" ∧ w = LEVELS_NIST ∨ a = t!"jisa" ∧ w = LEVELS_JISA := by
  simp only [defaultAliases, Dict.get?_cons, Dict.get?_nil]
  constructor
  · intro h
    split at h
    · next e => cases h; exact .inl ⟨e.symm, rfl⟩
    · split at h
      · next e => cases h; exact .inr ⟨e.symm, rfl⟩
      · cases h
  · rintro (⟨rfl, rfl⟩ | ⟨rfl, rfl⟩)
    · rw [if_pos rfl]
    · rw [if_neg (by decide), if_pos rfl]

theorem misused_iff {a u : Str} : (∃ w, defaultAliases.get? a = some w ∧ w ≠ u) ↔ Misused a u := by
  unfold Misused
  constructor
  · rintro ⟨w, h, hne⟩
    rcases default_get.1 h with ⟨rfl, rfl⟩ | ⟨rfl, rfl⟩
    · exact .inl ⟨rfl, fun e => hne e.symm⟩
    · exact .inr ⟨rfl, fun e => hne e.symm⟩
  · rintro (⟨rfl, h⟩ | ⟨rfl, h⟩)
    · exact ⟨LEVELS_NIST, default_get.2 (.inl ⟨rfl, rfl⟩), fun e => h e.symm⟩
    · exact ⟨LEVELS_JISA, default_get.2 (.inr ⟨rfl, rfl⟩), fun e => h e.symm⟩

/-- adding under a given alias -/
theorem addAlias_given (m : Dict Str Str) (u a : Str) :
    (∃ w, m.get? a = some w ∧ w ≠ u) ∧ addAlias m u (some a) = .error .keyError ∨
    (m.get? a = none ∨ m.get? a = some u) ∧ addAlias m u (some a) = .ok (m.set a u) := by
  unfold addAlias chooseAlias
  simp only
  cases hg : m.get? a with
  | none => right; exact ⟨.inl rfl, rfl⟩
  | some w =>
    by_cases e : w = u
    · right; subst e; exact ⟨.inr rfl, by simp⟩
    · left; exact ⟨⟨w, rfl, e⟩, by simp [e]⟩

/-- the aliases while arguments are parsed: well-known ones, and those that stand for something -/
structure Parsing (args : Dict Str Str) (o : Bool) (m : Dict Str Str) : Prop where
  ok : AliasesOk m
  src : ∀ a u, m.get? a = some u → defaultAliases.get? a = some u ∨ standsFor args o a = some u

theorem parsing_default (args : Dict Str Str) (o : Bool) : Parsing args o defaultAliases :=
  ⟨aliasesOk_default, fun _ _ h => .inl h⟩

theorem Parsing.add {args : Dict Str Str} {o : Bool} {m : Dict Str Str} (h : Parsing args o m) {a u : Str}
    (hs : standsFor args o a = some u) :
    (Misused a u ∧ addAlias m u (some a) = .error .keyError) ∨
    (¬ Misused a u ∧ addAlias m u (some a) = .ok (m.set a u) ∧ Parsing args o (m.set a u)) := by
  rcases addAlias_given m u a with ⟨⟨w, h1, h2⟩, h3⟩ | ⟨h1, h2⟩
  · left
    refine ⟨misused_iff.1 ⟨w, ?_, h2⟩, h3⟩
    rcases h.src a w h1 with g | g
    · exact g
    · rw [hs] at g; cases g; exact absurd rfl h2
  · right
    refine ⟨?_, h2, (addAlias_ok h.ok h2).1, ?_⟩
    · intro hm
      have : ∀ x, defaultAliases.get? a = some x → m.get? a = some x := by
        intro x hx
        rcases default_get.1 hx with ⟨rfl, rfl⟩ | ⟨rfl, rfl⟩
        · exact h.ok.nist
        · exact h.ok.jisa
      obtain ⟨x, hx, hne⟩ := misused_iff.2 hm
      rcases h1 with h1 | h1
      · rw [this x hx] at h1; cases h1
      · rw [this x hx] at h1; cases h1; exact hne rfl
    · intro b w hb
      rw [Dict.get?_set] at hb
      split at hb
      · next e => subst e; cases hb; exact .inr hs
      · exact h.src b w hb

/-- the levels of a request -/
theorem parseLevels_spec (args : Dict Str Str) (o strict : Bool) (l : List Str) (r : Request) (hp : Parsing args o r.aliases) :
    (∀ r', r.parseLevels args o strict l = .ok r' → (∀ a ∈ l, ∀ u, standsFor args o a = some u → ¬ Misused a u) ∧
      (strict = true → ∀ a ∈ l, standsFor args o a ≠ none) ∧
      r'.policies = r.policies ∧ r'.maxAge = r.maxAge ∧ Parsing args o r'.aliases ∧
      r'.levelTypes = (l.filterMap (standsFor args o)).foldl addOnce r.levelTypes) ∧
    ((∀ a ∈ l, ∀ u, standsFor args o a = some u → ¬ Misused a u) → (strict = true → ∀ a ∈ l, standsFor args o a ≠ none) →
      ∃ r', r.parseLevels args o strict l = .ok r') ∧
    ∀ e, r.parseLevels args o strict l = .error e → e = .keyError ∧ (∃ a ∈ l, ∃ u, standsFor args o a = some u ∧ Misused a u) ∨
      e = .valueError ∧ strict = true ∧ ∃ a ∈ l, standsFor args o a = none := by
  induction l generalizing r with
  | nil =>
    refine ⟨?_, ?_, ?_⟩
    · intro r' h; cases h; exact ⟨by simp, by simp, rfl, rfl, hp, rfl⟩
    · intro _ _; exact ⟨r, rfl⟩
    · intro e h; cases h
  | cons a l ih =>
    rw [Request.parseLevels, standsFor_eq]
    cases hs : standsFor args o a with
    | none =>
      simp only
      cases strict with
      | true =>
        refine ⟨fun r' h => by simp at h, fun _ h => absurd hs (h rfl a (by simp)), ?_⟩
        intro e h
        simp only [if_true] at h
        cases h
        exact .inr ⟨rfl, rfl, a, by simp, hs⟩
      | false =>
        simp only [Bool.false_eq_true, if_false]
        obtain ⟨h1, h2, h3⟩ := ih r hp
        refine ⟨?_, ?_, ?_⟩
        · intro r' h
          obtain ⟨g1, g2, g3, g4, g5, g6⟩ := h1 r' h
          refine ⟨?_, by simp, g3, g4, g5, by rw [g6]; simp [hs]⟩
          intro b hb u hu
          rcases List.mem_cons.1 hb with rfl | hb
          · rw [hs] at hu; cases hu
          · exact g1 b hb u hu
        · intro g _; exact h2 (fun b hb => g b (by simp [hb])) (by simp)
        · intro e h
          rcases h3 e h with ⟨g1, b, hb, g⟩ | ⟨-, g, -⟩
          · exact .inl ⟨g1, b, by simp [hb], g⟩
          · cases g
    | some u =>
      simp only [Request.addAuthLevel]
      rcases hp.add hs with ⟨g1, g2⟩ | ⟨g1, g2, g3⟩
      · rw [g2]
        simp only [error_bind]
        refine ⟨fun r' h => by (cases h), fun g => absurd g1 (g a (by simp) u hs), ?_⟩
        intro e h
        cases h
        exact .inl ⟨rfl, a, by simp, u, hs, g1⟩
      · rw [g2]
        simp only [ok_bind, pure_eq_ok]
        obtain ⟨h1, h2, h3⟩ := ih { r with aliases := r.aliases.set a u, levelTypes := addOnce r.levelTypes u } g3
        refine ⟨?_, ?_, ?_⟩
        · intro r' h
          obtain ⟨k1, k2, k3, k4, k5, k6⟩ := h1 r' h
          refine ⟨?_, ?_, k3, k4, k5, by rw [k6]; simp [hs]⟩
          · intro b hb w hw
            rcases List.mem_cons.1 hb with rfl | hb
            · rw [hs] at hw; cases hw; exact g1
            · exact k1 b hb w hw
          · intro hst b hb
            rcases List.mem_cons.1 hb with rfl | hb
            · rw [hs]; simp
            · exact k2 hst b hb
        · intro k hst
          exact h2 (fun b hb => k b (by simp [hb])) (fun h b hb => hst h b (by simp [hb]))
        · intro e h
          rcases h3 e h with ⟨k1, b, hb, k⟩ | ⟨k1, k2, b, hb, k⟩
          · exact .inl ⟨k1, b, by simp [hb], k⟩
          · exact .inr ⟨k1, k2, b, by simp [hb], k⟩


/-! ## lists in texts -/

theorem parsePolicies_eq (o : Option Str) : parsePolicies o = (parts o).eraseDups := by
  unfold parsePolicies parts
  match o with
  | none => rfl
  | some [] => rfl
  | some (c :: cs) => simp only [reduceCtorEq, Option.some.injEq, or_self, if_false, Option.getD_some, foldl_addOnce_nil]

theorem sentPolicies_eq (o : Option Str) : sentPolicies o = parts o := by
  unfold sentPolicies parts
  match o with
  | none => rfl
  | some [] => rfl
  | some (c :: cs) => simp only [reduceCtorEq, Option.some.injEq, or_self, if_false, Option.getD_some]

theorem listedAliases_eq (o : Option Str) : listedAliases o = wordsIn o := by
  unfold listedAliases wordsIn
  match o with
  | none => rfl
  | some [] => rfl
  | some (c :: cs) => simp only [Option.getD_some, words_strip]

theorem join_ne_nil {l : List Str} (h0 : l ≠ []) (h1 : l ≠ [[]]) : join t!" " l ≠ [] := by
  match l with
  | [] => exact absurd rfl h0
  | [p] =>
    intro e
    have : p = [] := e
    subst this
    exact h1 rfl
  | p :: q :: r => rw [join_cons_cons]; simp

theorem parts_join {l : List Str} (h : Listable l) : parts (some (join t!" " l)) = l := by
  unfold parts
  by_cases h0 : l = []
  · subst h0; rfl
  · have := join_ne_nil h0 h.2
    simp only [reduceCtorEq, Option.some.injEq, this, or_self, if_false, Option.getD_some]
    exact splitOn_join ' ' l h0 h.1

/-! ## times -/

theorem timeMatches_iff (X : ExtraDigits) (ps s : Str) : timeMatches X ps s = true ↔
    ∃ t, (s = t ∨ s = t ++ ['\n']) ∧ t.length = ps.length ∧ ∀ (i : Nat) c p, t[i]? = some c → ps[i]? = some p →
      if p = 'd' then (digitVal X c).isSome = true else c = p := by
  induction ps generalizing s with
  | nil =>
    rw [timeMatches]
    simp only [Bool.or_eq_true, decide_eq_true_eq]
    constructor
    · intro h; exact ⟨[], by simpa using h, rfl, by simp⟩
    · rintro ⟨t, h1, h2, -⟩
      have : t = [] := by simpa using h2
      subst this
      simpa using h1
  | cons p ps ih =>
    cases s with
    | nil =>
      rw [timeMatches]
      simp only [Bool.false_eq_true, false_iff]
      rintro ⟨t, h1 | h1, h2, -⟩
      · subst h1; simp at h2
      · simp at h1
    | cons c s =>
      rw [timeMatches, Bool.and_eq_true, ih]
      constructor
      · rintro ⟨h1, t, h2, h3, h4⟩
        refine ⟨c :: t, by simpa using h2, by simp [h3], ?_⟩
        intro i d q hd hq
        cases i with
        | zero =>
          simp only [List.getElem?_cons_zero, Option.some.injEq] at hd hq
          subst hd; subst hq
          split
          · next e => rw [if_pos e] at h1; exact h1
          · next e => rw [if_neg e] at h1; exact (of_decide_eq_true h1).symm
        | succ i =>
          simp only [List.getElem?_cons_succ] at hd hq
          exact h4 i d q hd hq
      · rintro ⟨t, h2, h3, h4⟩
        cases t with
        | nil => simp at h3
        | cons d t =>
          simp only [List.cons_append, List.cons.injEq] at h2
          have hc : c = d := by rcases h2 with h | h <;> exact h.1
          subst hc
          refine ⟨?_, t, ?_, by simpa using h3, ?_⟩
          · have := h4 0 c p rfl rfl
            split
            · next e => rw [if_pos e] at this; exact this
            · next e => rw [if_neg e] at this; simpa using this.symm
          · rcases h2 with h | h
            · exact .inl h.2
            · exact .inr h.2
          · intro i d q hd hq
            exact h4 (i + 1) d q (by simpa using hd) (by simpa using hq)

theorem timeOk_iff (X : ExtraDigits) (s : Str) : timeOk X s = true ↔ IsTime X s := by
  rw [timeOk, timeMatches_iff]
  unfold IsTime
  have hpat : ∀ i, i < 20 → (t!"dddd-dd-ddTdd:dd:ddZ" : Str)[i]? = some (if i = 4 ∨ i = 7 then '-' else if i = 10 then 'T' else
      if i = 13 ∨ i = 16 then ':' else if i = 19 then 'Z' else 'd') := by decide
  constructor
  · rintro ⟨t, h1, h2, h3⟩
    refine ⟨t, h1, h2, ?_⟩
    intro i c hc
    have hi : i < 20 := by
      have := (List.getElem?_eq_some_iff.1 hc).1
      have h20 : t.length = 20 := h2
      omega
    have := h3 i c _ hc (hpat i hi)
    split at this
    · next e1 => rw [if_neg (by decide)] at this; rw [if_pos e1]; exact this
    · next e1 =>
      rw [if_neg e1]
      split at this
      · next e2 => rw [if_neg (by decide)] at this; rw [if_pos e2]; exact this
      · next e2 =>
        rw [if_neg e2]
        split at this
        · next e3 => rw [if_neg (by decide)] at this; rw [if_pos e3]; exact this
        · next e3 =>
          rw [if_neg e3]
          split at this
          · next e4 => rw [if_neg (by decide)] at this; rw [if_pos e4]; exact this
          · next e4 => rw [if_pos rfl] at this; rw [if_neg e4]; exact this
  · rintro ⟨t, h1, h2, h3⟩
    refine ⟨t, h1, h2, ?_⟩
    intro i c p hc hp
    have hi : i < 20 := by
      have := (List.getElem?_eq_some_iff.1 hc).1
      omega
    have := h3 i c hc
    rw [hpat i hi] at hp
    cases hp
    split at this
    · next e1 => rw [if_pos e1, if_neg (by decide)]; exact this
    · next e1 =>
      rw [if_neg e1]
      split at this
      · next e2 => rw [if_pos e2, if_neg (by decide)]; exact this
      · next e2 =>
        rw [if_neg e2]
        split at this
        · next e3 => rw [if_pos e3, if_neg (by decide)]; exact this
        · next e3 =>
          rw [if_neg e3]
          split at this
          · next e4 => rw [if_pos e4, if_neg (by decide)]; exact this
          · next e4 => rw [if_neg e4, if_pos rfl]; exact this

/-! ## the levels of a response -/

/-- an alias of a level, and not a declaration -/
def Lv (args : Dict Str Str) (o : Bool) (a u : Str) : Prop := startsWith a t!"ns." = false ∧ standsFor args o a = some u

theorem parseLevel_cases (args : Dict Str Str) (o strict : Bool) (r : Response) (hp : Parsing args o r.aliases) (k v : Str) :
    (∃ a u, k = t!"auth_level." ++ a ∧ Lv args o a u ∧
      (Misused a u ∧ r.parseLevel args o strict (k, v) = .error .keyError ∨
       ¬ Misused a u ∧ r.parseLevel args o strict (k, v) = .ok { r with aliases := r.aliases.set a u, levels := r.levels.set u v } ∧
        Parsing args o (r.aliases.set a u))) ∨
    ((∀ a u, k = t!"auth_level." ++ a → ¬ Lv args o a u) ∧
      ((strict = true ∧ (∃ a, k = t!"auth_level." ++ a ∧ startsWith a t!"ns." = false ∧ standsFor args o a = none) ∧
        r.parseLevel args o strict (k, v) = .error .valueError) ∨
       ¬ (strict = true ∧ ∃ a, k = t!"auth_level." ++ a ∧ startsWith a t!"ns." = false ∧ standsFor args o a = none) ∧
        r.parseLevel args o strict (k, v) = .ok r)) := by
  unfold Response.parseLevel
  by_cases hk : startsWith k t!"auth_level." = true
  · obtain ⟨a, rfl⟩ := (startsWith_iff _ _).1 hk
    have hd : (t!"auth_level." ++ a).drop 11 = a := rfl
    simp only [hd, hk, if_true]
    have hinj : ∀ b, t!"auth_level." ++ a = t!"auth_level." ++ b → a = b := fun b h => List.append_cancel_left h
    cases hns : startsWith a t!"ns." with
    | true =>
      right
      refine ⟨?_, .inr ⟨?_, by simp⟩⟩
      · intro b u e h; have := hinj b e; subst this; rw [Lv, hns] at h; cases h.1
      · rintro ⟨-, b, e, h, -⟩; have := hinj b e; subst this; rw [hns] at h; cases h
    | false =>
      simp only [Bool.false_eq_true, if_false, standsFor_eq]
      cases hs : standsFor args o a with
      | none =>
        right
        simp only
        refine ⟨?_, ?_⟩
        · intro b u e h; have := hinj b e; subst this; rw [Lv, hs] at h; cases h.2
        · cases strict with
          | true => left; exact ⟨rfl, ⟨a, rfl, hns, hs⟩, by simp⟩
          | false => right; exact ⟨by simp, by simp⟩
      | some u =>
        left
        refine ⟨a, u, rfl, ⟨hns, hs⟩, ?_⟩
        simp only [Response.setAuthLevel]
        rcases hp.add hs with ⟨g1, g2⟩ | ⟨g1, g2, g3⟩
        · left; rw [g2]; exact ⟨g1, rfl⟩
        · right; rw [g2]; exact ⟨g1, rfl, g3⟩
  · right
    have hno : ∀ a, k ≠ t!"auth_level." ++ a := fun a e => hk ((startsWith_iff _ _).2 ⟨a, e⟩)
    refine ⟨fun a u e => absurd e (hno a), .inr ⟨?_, by simp [hk]⟩⟩
    rintro ⟨-, a, e, -⟩
    exact hno a e

/-- where the level of a type is from: the last argument that has it -/
def LastLevel (args : Dict Str Str) (o : Bool) (l : List (Str × Str)) (u v : Str) : Prop :=
  ∃ pre a post, l = pre ++ (t!"auth_level." ++ a, v) :: post ∧ Lv args o a u ∧ ∀ b w, (t!"auth_level." ++ b, w) ∈ post → ¬ Lv args o b u

theorem parseLevels_response (args : Dict Str Str) (o strict : Bool) (l : List (Str × Str)) (r : Response) (hp : Parsing args o r.aliases) :
    (∀ r', l.foldlM (Response.parseLevel args o strict) r = .ok r' →
      (∀ a v u, (t!"auth_level." ++ a, v) ∈ l → Lv args o a u → ¬ Misused a u) ∧
      (strict = true → ∀ a v, (t!"auth_level." ++ a, v) ∈ l → startsWith a t!"ns." = false → standsFor args o a ≠ none) ∧
      r'.policies = r.policies ∧ r'.authTime = r.authTime ∧ Parsing args o r'.aliases ∧ (Dict.WF r.levels → Dict.WF r'.levels) ∧
      ∀ u v, r'.levels.get? u = some v ↔ LastLevel args o l u v ∨
        (∀ b w, (t!"auth_level." ++ b, w) ∈ l → ¬ Lv args o b u) ∧ r.levels.get? u = some v) ∧
    ((∀ a v u, (t!"auth_level." ++ a, v) ∈ l → Lv args o a u → ¬ Misused a u) →
      (strict = true → ∀ a v, (t!"auth_level." ++ a, v) ∈ l → startsWith a t!"ns." = false → standsFor args o a ≠ none) →
      ∃ r', l.foldlM (Response.parseLevel args o strict) r = .ok r') ∧
    ∀ e, l.foldlM (Response.parseLevel args o strict) r = .error e →
      e = .keyError ∧ (∃ a v u, (t!"auth_level." ++ a, v) ∈ l ∧ Lv args o a u ∧ Misused a u) ∨
      e = .valueError ∧ strict = true ∧ ∃ a v, (t!"auth_level." ++ a, v) ∈ l ∧ startsWith a t!"ns." = false ∧ standsFor args o a = none := by
  induction l generalizing r with
  | nil =>
    refine ⟨?_, fun _ _ => ⟨r, rfl⟩, fun e h => by (cases h)⟩
    intro r' h
    cases h
    refine ⟨by simp, by simp, rfl, rfl, hp, id, ?_⟩
    intro u v
    constructor
    · exact fun h => .inr ⟨by simp, h⟩
    · rintro (⟨pre, a, post, h, -⟩ | ⟨-, h⟩)
      · simp at h
      · exact h
  | cons kv l ih =>
    obtain ⟨k, v⟩ := kv
    rw [List.foldlM_cons]
    have hinj : ∀ a b : Str, t!"auth_level." ++ a = t!"auth_level." ++ b → a = b := fun a b h => List.append_cancel_left h
    rcases parseLevel_cases args o strict r hp k v with ⟨a, u, rfl, hlv, ⟨g1, g2⟩ | ⟨g1, g2, g3⟩⟩ | ⟨hno, ⟨g1, ⟨a, e, g4, g5⟩, g2⟩ | ⟨g1, g2⟩⟩
    · rw [g2]
      refine ⟨fun r' h => by (cases h), fun h => absurd g1 (h a v u (by simp) hlv), ?_⟩
      intro e h
      cases h
      exact .inl ⟨rfl, a, v, u, by simp, hlv, g1⟩
    · rw [g2]
      simp only [ok_bind]
      obtain ⟨h1, h2, h3⟩ := ih { r with aliases := r.aliases.set a u, levels := r.levels.set u v } g3
      refine ⟨?_, ?_, ?_⟩
      · intro r' h
        obtain ⟨k1, k2, k3, k4, k5, k6, k7⟩ := h1 r' h
        refine ⟨?_, ?_, k3, k4, k5, fun hw => k6 (Dict.WF_set _ hw _ _), ?_⟩
        · intro b w x hb hx
          rcases List.mem_cons.1 hb with e | hb
          · injection e with e1 e2
            have := hinj _ _ e1; subst this
            have := hlv.2.symm.trans hx.2; cases this
            exact g1
          · exact k1 b w x hb hx
        · intro hs b w hb hns
          rcases List.mem_cons.1 hb with e | hb
          · injection e with e1 e2
            have := hinj _ _ e1; subst this
            rw [hlv.2]; simp
          · exact k2 hs b w hb hns
        · intro x w
          rw [k7]
          constructor
          · rintro (⟨pre, b, post, e, q⟩ | ⟨q1, q2⟩)
            · subst e
              exact .inl ⟨_ :: pre, b, post, rfl, q⟩
            · simp only [Dict.get?_set] at q2
              split at q2
              · next e =>
                subst e; cases q2
                exact .inl ⟨[], a, l, rfl, hlv, q1⟩
              · next e =>
                right
                refine ⟨?_, q2⟩
                intro b z hb hx
                rcases List.mem_cons.1 hb with e' | hb
                · injection e' with e1 e2
                  have := hinj _ _ e1; subst this
                  have := hlv.2.symm.trans hx.2; cases this
                  exact e rfl
                · exact q1 b z hb hx
          · rintro (⟨pre, b, post, e, q1, q2⟩ | ⟨q1, q2⟩)
            · cases pre with
              | nil =>
                simp only [List.nil_append, List.cons.injEq, Prod.mk.injEq] at e
                obtain ⟨⟨e1, rfl⟩, rfl⟩ := e
                have := hinj _ _ e1; subst this
                have := hlv.2.symm.trans q1.2; cases this
                right
                exact ⟨q2, by simp [Dict.get?_set]⟩
              | cons p pre =>
                simp only [List.cons_append, List.cons.injEq] at e
                exact .inl ⟨pre, b, post, e.2, q1, q2⟩
            · right
              refine ⟨fun b z hb => q1 b z (List.mem_cons_of_mem _ hb), ?_⟩
              simp only [Dict.get?_set]
              split
              · next e => subst e; exact absurd hlv (q1 a v (by simp))
              · exact q2
      · intro q hs
        exact h2 (fun b w x hb => q b w x (List.mem_cons_of_mem _ hb)) (fun h b w hb => hs h b w (List.mem_cons_of_mem _ hb))
      · intro e h
        rcases h3 e h with ⟨q1, b, w, x, hb, q⟩ | ⟨q1, q2, b, w, hb, q⟩
        · exact .inl ⟨q1, b, w, x, List.mem_cons_of_mem _ hb, q⟩
        · exact .inr ⟨q1, q2, b, w, List.mem_cons_of_mem _ hb, q⟩
    · subst e
      rw [g2]
      refine ⟨fun r' h => by (cases h), fun _ h => absurd g5 (h g1 a v (by simp) g4), ?_⟩
      intro e h
      cases h
      exact .inr ⟨rfl, g1, a, v, by simp, g4, g5⟩
    · rw [g2]
      simp only [ok_bind]
      obtain ⟨h1, h2, h3⟩ := ih r hp
      refine ⟨?_, ?_, ?_⟩
      · intro r' h
        obtain ⟨k1, k2, k3, k4, k5, k6, k7⟩ := h1 r' h
        refine ⟨?_, ?_, k3, k4, k5, k6, ?_⟩
        · intro b w x hb hx
          rcases List.mem_cons.1 hb with e | hb
          · injection e with e1 e2
            exact absurd hx (hno b x e1.symm)
          · exact k1 b w x hb hx
        · intro hs b w hb hns hnone
          rcases List.mem_cons.1 hb with e | hb
          · injection e with e1 e2
            exact g1 ⟨hs, b, e1.symm, hns, hnone⟩
          · exact k2 hs b w hb hns hnone
        · intro x w
          rw [k7]
          constructor
          · rintro (⟨pre, b, post, e, q⟩ | ⟨q1, q2⟩)
            · subst e
              exact .inl ⟨_ :: pre, b, post, rfl, q⟩
            · right
              refine ⟨?_, q2⟩
              intro b z hb hx
              rcases List.mem_cons.1 hb with e' | hb
              · injection e' with e1 e2
                exact hno b x e1.symm hx
              · exact q1 b z hb hx
          · rintro (⟨pre, b, post, e, q1, q2⟩ | ⟨q1, q2⟩)
            · cases pre with
              | nil =>
                simp only [List.nil_append, List.cons.injEq, Prod.mk.injEq] at e
                exact absurd q1 (hno b x e.1.1)
              | cons p pre =>
                simp only [List.cons_append, List.cons.injEq] at e
                exact .inl ⟨pre, b, post, e.2, q1, q2⟩
            · exact .inr ⟨fun b z hb => q1 b z (List.mem_cons_of_mem _ hb), q2⟩
      · intro q hs
        exact h2 (fun b w x hb => q b w x (List.mem_cons_of_mem _ hb)) (fun h b w hb => hs h b w (List.mem_cons_of_mem _ hb))
      · intro e h
        rcases h3 e h with ⟨q1, b, w, x, hb, q⟩ | ⟨q1, q2, b, w, hb, q⟩
        · exact .inl ⟨q1, b, w, x, List.mem_cons_of_mem _ hb, q⟩
        · exact .inr ⟨q1, q2, b, w, List.mem_cons_of_mem _ hb, q⟩

/-! ## aliases -/

theorem addAlias_spec {m : Dict Str Str} (hm : Dict.WF m) (u : Str) (alias : Option Str) : Aliased m u alias (addAlias m u alias) := by
  unfold addAlias chooseAlias
  cases alias with
  | some a =>
    simp only
    cases hg : m.get? a with
    | none =>
      simp only [ok_bind, pure_eq_ok]
      rw [Dict.set_fresh _ _ _ ((Dict.get?_none_iff _ _).1 hg)]
      exact .given a rfl hg
    | some w =>
      simp only
      by_cases e : w = u
      · subst e
        simp only [if_true, ok_bind, pure_eq_ok]
        rw [Dict.set_same _ _ _ hg]
        exact .again a rfl hg
      · rw [if_neg e]
        exact .clash a w rfl hg e
  | none =>
    simp only
    cases hg : getAlias m u with
    | some a =>
      have := getAlias_some hm hg
      simp only [ok_bind, pure_eq_ok]
      rw [Dict.set_same _ _ _ this]
      exact .kept a rfl this
    | none =>
      have hn := fun a => getAlias_none hg a
      simp only [generateAlias]
      cases hgen : generateFrom m 0 1000 with
      | ok a =>
        obtain ⟨j, -, h2, rfl, h4, h5⟩ := generateFrom_ok hgen
        simp only [ok_bind, pure_eq_ok]
        rw [Dict.set_fresh _ _ _ ((Dict.get?_none_iff _ _).1 h4)]
        exact .made j rfl hn (by omega) h4 fun i hi => h5 i (by omega) hi
      | error e =>
        obtain ⟨rfl, h2⟩ := generateFrom_error hgen
        exact .full rfl hn fun i hi => h2 i (by omega) (by omega)

theorem addOnce_eq (l : List Str) (x : Str) : addOnce l x = once l x := by
  unfold addOnce once
  by_cases h : x ∈ l
  · rw [if_pos h, if_pos (List.contains_iff_mem.2 h)]
  · rw [if_neg h, if_neg (fun h' => h (List.contains_iff_mem.1 h'))]

/-- the aliases that a parsed request has -/
theorem parseLevels_aliases (args : Dict Str Str) (o strict : Bool) (l : List Str) (r r' : Request) (hp : Parsing args o r.aliases)
    (h : r.parseLevels args o strict l = .ok r') :
    (∀ a ∈ l, ∀ u, standsFor args o a = some u → r'.aliases.get? a = some u) ∧
      ∀ a u, r.aliases.get? a = some u → r'.aliases.get? a = some u := by
  induction l generalizing r with
  | nil => cases h; exact ⟨by simp, fun _ _ h => h⟩
  | cons b l ih =>
    rw [Request.parseLevels, standsFor_eq] at h
    cases hs : standsFor args o b with
    | none =>
      rw [hs] at h
      simp only at h
      split at h
      · cases h
      · obtain ⟨h1, h2⟩ := ih r hp h
        refine ⟨?_, h2⟩
        intro a ha u hu
        rcases List.mem_cons.1 ha with rfl | ha
        · rw [hs] at hu; cases hu
        · exact h1 a ha u hu
    | some w =>
      rw [hs] at h
      simp only [Request.addAuthLevel] at h
      rcases hp.add hs with ⟨g1, g2⟩ | ⟨g1, g2, g3⟩
      · rw [g2] at h; cases h
      · have hf := addAlias_given r.aliases w b
        rw [g2] at h hf
        simp only [ok_bind, pure_eq_ok] at h
        obtain ⟨h1, h2⟩ := ih { r with aliases := r.aliases.set b w, levelTypes := addOnce r.levelTypes w } g3 h
        have hfree : r.aliases.get? b = none ∨ r.aliases.get? b = some w := by
          rcases hf with ⟨-, hf⟩ | ⟨hf, -⟩
          · cases hf
          · exact hf
        refine ⟨?_, fun a u hu => h2 a u (set_keeps hfree hu)⟩
        intro a ha u hu
        rcases List.mem_cons.1 ha with rfl | ha
        · rw [hs] at hu; cases hu
          exact h2 a w (by simp [Dict.get?_set])
        · exact h1 a ha u hu

/-- the aliases that a parsed response has -/
theorem parseLevels_response_aliases (args : Dict Str Str) (o strict : Bool) (l : List (Str × Str)) (r r' : Response)
    (hp : Parsing args o r.aliases) (h : l.foldlM (Response.parseLevel args o strict) r = .ok r') :
    (∀ a v u, (t!"auth_level." ++ a, v) ∈ l → Lv args o a u → r'.aliases.get? a = some u) ∧
      ∀ a u, r.aliases.get? a = some u → r'.aliases.get? a = some u := by
  induction l generalizing r with
  | nil => cases h; exact ⟨by simp, fun _ _ h => h⟩
  | cons kv l ih =>
    obtain ⟨k, v⟩ := kv
    rw [List.foldlM_cons] at h
    rcases parseLevel_cases args o strict r hp k v with ⟨a, u, rfl, hlv, ⟨g1, g2⟩ | ⟨g1, g2, g3⟩⟩ | ⟨hno, ⟨g1, -, g2⟩ | ⟨g1, g2⟩⟩
    · rw [g2] at h; cases h
    · rw [g2] at h
      simp only [ok_bind] at h
      obtain ⟨h1, h2⟩ := ih { r with aliases := r.aliases.set a u, levels := r.levels.set u v } g3 h
      have hf : r.aliases.get? a = none ∨ r.aliases.get? a = some u := by
        rcases addAlias_given r.aliases u a with ⟨⟨w, q1, q2⟩, -⟩ | ⟨hf, -⟩
        · rcases hp.src a w q1 with q | q
          · exact absurd (misused_iff.1 ⟨w, q, q2⟩) g1
          · rw [hlv.2] at q; cases q; exact absurd rfl q2
        · exact hf
      refine ⟨?_, fun b w hb => h2 b w (set_keeps hf hb)⟩
      intro b w x hb hx
      rcases List.mem_cons.1 hb with e | hb
      · injection e with e1 e2
        have e1 : b = a := List.append_cancel_left e1
        subst e1
        have := hlv.2.symm.trans hx.2; cases this
        exact h2 b u (by simp [Dict.get?_set])
      · exact h1 b w x hb hx
    · rw [g2] at h; cases h
    · rw [g2] at h
      simp only [ok_bind] at h
      obtain ⟨h1, h2⟩ := ih r hp h
      refine ⟨?_, h2⟩
      intro b w x hb hx
      rcases List.mem_cons.1 hb with e | hb
      · injection e with e1 e2
        exact absurd hx (hno b x e1.symm)
      · exact h1 b w x hb hx

end Pape
