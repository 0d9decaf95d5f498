import Verif.Model.Message
import Verif.Lemmas.Py
/-! Helper lemmas for namespace maps and messages. -/

namespace Py

theorem length_le_of_nodup_subset [DecidableEq α] (l m : List α) (hl : l.Nodup) (hs : ∀ x ∈ l, x ∈ m) :
    l.length ≤ m.length := by
  induction l generalizing m with
  | nil => simp
  | cons a l ih =>
    obtain ⟨h1, h2⟩ := List.nodup_cons.1 hl
    have ha := hs a (by simp)
    have := ih (m.erase a) h2 (by
      intro x hx
      have hne : x ≠ a := by rintro rfl; exact h1 hx
      exact (List.mem_erase_of_ne hne).2 (hs x (by simp [hx])))
    rw [List.length_erase_of_mem ha] at this
    have : 0 < m.length := List.length_pos_of_mem ha
    simp; omega

end Py

namespace Message
open Py

namespace NamespaceMap

/-- what the alias texts must satisfy -/
def okAlias : Alias → Bool
  | .null => true
  | .name s => !(OPENID_PROTOCOL_FIELDS.contains s) && !(s.contains '.')

/-- the invariant of a namespace map -/
structure Inv (m : NamespaceMap) : Prop where
  wfA : Dict.WF m.aliasToNs
  wfN : Dict.WF m.nsToAlias
  bij : ∀ a u, m.aliasToNs.get? a = some u ↔ m.nsToAlias.get? u = some a
  imp : ∀ u ∈ m.implicit, (m.nsToAlias.get? u).isSome = true
  ok : ∀ a u, m.aliasToNs.get? a = some u → okAlias a = true

theorem inv_empty : Inv {} :=
  ⟨Dict.WF_nil, Dict.WF_nil, by simp [Dict.get?], by simp, by simp [Dict.get?]⟩

theorem differs_false [DecidableEq α] (o : Option α) (x : α) :
    differs o x = false ↔ (o = none ∨ o = some x) := by
  cases o <;> simp [differs]

/-- what a successful `addAlias` does -/
theorem addAlias_ok (m : NamespaceMap) (uri : Str) (a : Alias) (imp : Bool) (m' : NamespaceMap)
    (h : m.addAlias uri a imp = .ok m') :
    okAlias a = true ∧ (m.aliasToNs.get? a = none ∨ m.aliasToNs.get? a = some uri) ∧
    (m.nsToAlias.get? uri = none ∨ m.nsToAlias.get? uri = some a) ∧ uri ∉ m.implicit ∧
    m' = { aliasToNs := m.aliasToNs.set a uri, nsToAlias := m.nsToAlias.set uri a,
           implicit := if imp then m.implicit ++ [uri] else m.implicit } := by
  unfold addAlias at h
  change (if (!okAlias a) = true then _ else _) = _ at h
  split at h
  · simp at h
  · rename_i h1
    split at h
    · simp at h
    · rename_i h2
      split at h
      · simp at h
      · rename_i h3
        split at h
        · simp at h
        · rename_i h4
          simp only [Except.ok.injEq] at h
          refine ⟨by simpa using h1, ?_, ?_, by simpa using h4, h.symm⟩
          · exact (differs_false _ _).1 (by simpa using h2)
          · exact (differs_false _ _).1 (by simpa using h3)

theorem addAlias_of (m : NamespaceMap) (uri : Str) (a : Alias) (imp : Bool) (h1 : okAlias a = true)
    (h2 : m.aliasToNs.get? a = none ∨ m.aliasToNs.get? a = some uri)
    (h3 : m.nsToAlias.get? uri = none ∨ m.nsToAlias.get? uri = some a) (h4 : uri ∉ m.implicit) :
    m.addAlias uri a imp = .ok
      { aliasToNs := m.aliasToNs.set a uri, nsToAlias := m.nsToAlias.set uri a,
        implicit := if imp then m.implicit ++ [uri] else m.implicit } := by
  unfold addAlias
  change (if (!okAlias a) = true then _ else _) = _
  rw [if_neg (by simp [h1]), if_neg, if_neg, if_neg (by simpa using h4)]
  · simpa using (differs_false _ _).2 h3
  · simpa using (differs_false _ _).2 h2

theorem inv_addAlias (m : NamespaceMap) (hm : Inv m) (uri : Str) (a : Alias) (imp : Bool)
    (m' : NamespaceMap) (h : m.addAlias uri a imp = .ok m') : Inv m' := by
  obtain ⟨h1, h2, h3, h4, rfl⟩ := addAlias_ok m uri a imp m' h
  refine ⟨Dict.WF_set _ hm.wfA _ _, Dict.WF_set _ hm.wfN _ _, ?_, ?_, ?_⟩
  · intro b u
    simp only [Dict.get?_set]
    by_cases hab : a = b
    · subst hab
      by_cases hu : uri = u
      · subst hu; simp
      · simp only [↓reduceIte, Option.some.injEq, if_neg hu]
        constructor
        · intro e; exact absurd e hu
        · intro e
          rw [← hm.bij] at e
          rcases h2 with h2 | h2
          · rw [h2] at e; simp at e
          · rw [h2] at e; simp at e; exact e
    · simp only [if_neg hab]
      by_cases hu : uri = u
      · subst hu
        simp only [↓reduceIte, Option.some.injEq]
        constructor
        · intro e
          rw [hm.bij] at e
          rcases h3 with h3 | h3
          · rw [h3] at e; simp at e
          · rw [h3] at e; simp at e; exact e
        · intro e; exact absurd e hab
      · simp only [if_neg hu]; exact hm.bij b u
  · intro u hu
    simp only [Dict.get?_set]
    split
    · rfl
    · rename_i hne
      apply hm.imp
      cases imp
      · simpa using hu
      · simp only [↓reduceIte, List.mem_append, List.mem_singleton] at hu
        rcases hu with hu | hu
        · exact hu
        · exact absurd hu.symm hne
  · intro b u
    simp only [Dict.get?_set]
    split
    · rename_i e; subst e; intro _; exact h1
    · exact hm.ok b u

/-- the generated alias number `i` -/
abbrev ext (i : Nat) : Alias := .name (t!"ext" ++ natToStr i)

theorem okAlias_ext (i : Nat) : okAlias (ext i) = true := by
  have hd := (natToStr_spec i).2.1
  have hdot : '.' ∉ t!"ext" ++ natToStr i := by
    intro hm
    rcases List.mem_append.1 hm with h | h
    · revert h; decide
    · exact absurd (hd _ h) (by decide)
  have hf : ∀ f ∈ OPENID_PROTOCOL_FIELDS, startsWith f t!"ext" = false := by decide
  have hnf : t!"ext" ++ natToStr i ∉ OPENID_PROTOCOL_FIELDS := by
    intro hm
    have := hf _ hm
    have h2 : startsWith (t!"ext" ++ natToStr i) t!"ext" = true := (startsWith_iff _ _).2 ⟨_, rfl⟩
    rw [h2] at this; simp at this
  simp only [okAlias, Bool.and_eq_true, Bool.not_eq_true', List.contains_eq_mem, decide_eq_false_iff_not]
  exact ⟨hnf, hdot⟩

theorem ext_inj (i j : Nat) (h : ext i = ext j) : i = j := by
  simp at h; exact natToStr_inj i j h

theorem addLoop_spec (m : NamespaceMap) (hm : Inv m) (uri : Str) (hu : m.nsToAlias.get? uri = none)
    (fuel i : Nat) (hex : ∃ j, i ≤ j ∧ j < i + fuel ∧ m.aliasToNs.get? (ext j) = none) :
    ∃ j, i ≤ j ∧ m.aliasToNs.get? (ext j) = none ∧
      (∀ k, i ≤ k → k < j → (m.aliasToNs.get? (ext k)).isSome = true) ∧
      addLoop m uri fuel i = m.addAlias uri (ext j) := by
  induction fuel generalizing i with
  | zero => obtain ⟨j, h1, h2, _⟩ := hex; omega
  | succ fuel ih =>
    have himp : uri ∉ m.implicit := fun hmem => by
      have := hm.imp uri hmem; rw [hu] at this; simp at this
    cases hg : m.aliasToNs.get? (ext i) with
    | none =>
      refine ⟨i, Nat.le_refl _, hg, fun k h1 h2 => by omega, ?_⟩
      rw [addLoop, addAlias_of m uri (ext i) false (okAlias_ext i) (.inl hg) (.inl hu) himp]
    | some u =>
      have hne : u ≠ uri := by
        rintro rfl
        rw [hm.bij, hu] at hg; simp at hg
      have herr : m.addAlias uri (ext i) = .error .invalidNamespace := by
        unfold addAlias
        have hok := okAlias_ext i
        change (if (!okAlias (ext i)) = true then _ else _) = _
        rw [if_neg (by simp [hok]), if_pos]
        rw [hg]; simpa [differs] using hne
      obtain ⟨j, h1, h2, h3⟩ := hex
      have hj : j ≠ i := by rintro rfl; rw [hg] at h3; simp at h3
      obtain ⟨j', e1, e2, e3, e4⟩ := ih (i + 1) ⟨j, by omega, by omega, h3⟩
      refine ⟨j', by omega, e2, ?_, ?_⟩
      · intro k hk1 hk2
        by_cases hki : k = i
        · subst hki; simp [hg]
        · exact e3 k (by omega) hk2
      · rw [addLoop, herr]; simp only [PyErr.isKeyError, ↓reduceIte]; exact e4

/-- `add` always succeeds: it keeps the map if the URI is known, else adds the first free generated
    alias -/
theorem add_total (m : NamespaceMap) (hm : Inv m) (uri : Str) :
    (∃ a, m.nsToAlias.get? uri = some a ∧ m.add uri = .ok m) ∨
    (m.nsToAlias.get? uri = none ∧ ∃ j m', m.aliasToNs.get? (ext j) = none ∧
      (∀ k, k < j → (m.aliasToNs.get? (ext k)).isSome = true) ∧
      m.addAlias uri (ext j) = .ok m' ∧ m.add uri = .ok m') := by
  cases hg : m.nsToAlias.get? uri with
  | some a => left; exact ⟨a, rfl, by rw [add, hg]⟩
  | none =>
    right
    refine ⟨rfl, ?_⟩
    have hex : ∃ j, 0 ≤ j ∧ j < 0 + (m.aliasToNs.length + 1) ∧ m.aliasToNs.get? (ext j) = none := by
      apply Classical.byContradiction
      intro hno
      have hall : ∀ j, j < m.aliasToNs.length + 1 → ext j ∈ Dict.keys m.aliasToNs := by
        intro j hj
        rw [Dict.mem_keys_iff]
        cases h : m.aliasToNs.get? (ext j) with
        | some _ => rfl
        | none => exact absurd ⟨j, by omega, by omega, h⟩ hno
      have := length_le_of_nodup_subset ((List.range (m.aliasToNs.length + 1)).map ext)
        (Dict.keys m.aliasToNs)
        (by
          rw [List.nodup_iff_pairwise_ne, List.pairwise_map]
          refine List.Pairwise.imp ?_ (List.nodup_iff_pairwise_ne.1 List.nodup_range)
          intro a b hab h; exact hab (ext_inj a b h))
        (by intro x hx; obtain ⟨j, hj, rfl⟩ := List.mem_map.1 hx; exact hall j (List.mem_range.1 hj))
      simp [Dict.keys] at this
      omega
    obtain ⟨j, -, h2, h3, h4⟩ := addLoop_spec m hm uri hg _ 0 hex
    have himp : uri ∉ m.implicit := fun hmem => by
      have := hm.imp uri hmem; rw [hg] at this; simp at this
    have hok := addAlias_of m uri (ext j) false (okAlias_ext j) (.inl h2) (.inl hg) himp
    exact ⟨j, _, h2, fun k hk => h3 k (by omega) hk, hok, by rw [add, hg]; simp only; rw [h4, hok]⟩

theorem inv_add (m : NamespaceMap) (hm : Inv m) (uri : Str) (m' : NamespaceMap)
    (h : m.add uri = .ok m') : Inv m' := by
  rcases add_total m hm uri with ⟨a, _, e⟩ | ⟨_, j, m2, _, _, e1, e2⟩
  · rw [e] at h; simp at h; rw [← h]; exact hm
  · rw [e2] at h; simp at h; rw [← h]; exact inv_addAlias m hm _ _ _ _ e1

/-- an assigned alias is never reassigned -/
theorem addAlias_keeps (m : NamespaceMap) (uri : Str) (a : Alias) (imp : Bool) (m' : NamespaceMap)
    (h : m.addAlias uri a imp = .ok m') :
    (∀ b u, m.aliasToNs.get? b = some u → m'.aliasToNs.get? b = some u) ∧
    (∀ u b, m.nsToAlias.get? u = some b → m'.nsToAlias.get? u = some b) := by
  obtain ⟨h1, h2, h3, h4, rfl⟩ := addAlias_ok m uri a imp m' h
  constructor
  · intro b u hb
    simp only [Dict.get?_set]
    split
    · rename_i e; subst e; rcases h2 with h2 | h2 <;> rw [h2] at hb <;> simp_all
    · exact hb
  · intro u b hb
    simp only [Dict.get?_set]
    split
    · rename_i e; subst e; rcases h3 with h3 | h3 <;> rw [h3] at hb <;> simp_all
    · exact hb

theorem add_keeps (m : NamespaceMap) (hm : Inv m) (uri : Str) (m' : NamespaceMap)
    (h : m.add uri = .ok m') :
    (∀ b u, m.aliasToNs.get? b = some u → m'.aliasToNs.get? b = some u) ∧
    (∀ u b, m.nsToAlias.get? u = some b → m'.nsToAlias.get? u = some b) := by
  rcases add_total m hm uri with ⟨a, _, e⟩ | ⟨_, j, m2, _, _, e1, e2⟩
  · rw [e] at h; simp at h; subst h; exact ⟨fun _ _ h => h, fun _ _ h => h⟩
  · rw [e2] at h; simp at h; subst h; exact addAlias_keeps m _ _ _ _ e1

end NamespaceMap
end Message
