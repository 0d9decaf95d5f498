import Verif.Lemmas.Xri
/-! # C72: which characters of a name are escaped

Percent signs are escaped everywhere, and slashes, question marks and number signs in cross-references.  A cross-reference is
what is between a left and the next right parenthesis on the same line. -/

namespace Props
open Py Percent

/-- no cross-reference begins in the text: after every left parenthesis the line ends before there is a right one -/
def NoXrefIn (pre : Str) : Prop := ∀ p q, pre = p ++ '(' :: q → ∃ a b, q = a ++ '\n' :: b ∧ ')' ∉ a

/-- how a character outside cross-references is written -/
def escapedOut (c : Char) : Str := if c = '%' then t!"%25" else [c]

/-- how a character of a cross-reference is written -/
def escapedIn (c : Char) : Str :=
  if c = '%' then t!"%25" else if c = '/' then t!"%2F" else if c = '?' then t!"%3F" else if c = '#' then t!"%23" else [c]

theorem cut_pct (s : Str) : cut ')' (replaceChar '%' t!"%25" s) =
    (cut ')' s).map fun p => (replaceChar '%' t!"%25" p.1, replaceChar '%' t!"%25" p.2) := by
  induction s with
  | nil => rfl
  | cons c s ih =>
    rw [replaceChar, List.flatMap_cons]
    rw [replaceChar] at ih
    by_cases hc : c = '%'
    · subst hc
      simp only [if_true, List.cons_append, List.nil_append, cut, ih]
      cases cut ')' s <;> simp [replaceChar]
    · rw [if_neg hc]
      simp only [List.cons_append, List.nil_append, cut]
      split
      · simp [replaceChar]
      · rw [ih]; cases cut ')' s <;> simp [replaceChar, hc]

theorem newline_pct (s : Str) : (replaceChar '%' t!"%25" s).contains '\n' = s.contains '\n' := by
  rw [Bool.eq_iff_iff]
  simp only [List.contains_iff_mem, replaceChar, List.mem_flatMap]
  constructor
  · rintro ⟨c, hc, h⟩
    split at h
    · exact absurd h (by decide)
    · rw [List.mem_singleton.1 h]; exact hc
  · intro h
    exact ⟨'\n', h, by decide⟩

theorem escapeXref_in (s : Str) : Xri.escapeXref (replaceChar '%' t!"%25" s) = s.flatMap escapedIn := by
  rw [Xri.escapeXref]
  simp only [replaceChar, List.flatMap_assoc]
  congr 1
  funext c
  by_cases h1 : c = '%'
  · subst h1; decide
  · by_cases h2 : c = '/'
    · subst h2; decide
    · by_cases h3 : c = '?'
      · subst h3; decide
      · by_cases h4 : c = '#'
        · subst h4; decide
        · simp [escapedIn, h1, h2, h3, h4]

theorem escape_cons (c : Char) (s : Str) (h : c = '(' → ∀ i r, cut ')' s = some (i, r) → i.contains '\n' = true) :
    Xri.escapeForIRI (c :: s) = escapedOut c ++ Xri.escapeForIRI s := by
  rw [Xri.escapeForIRI, Xri.escapeForIRI]
  have hr : replaceChar '%' t!"%25" (c :: s) = escapedOut c ++ replaceChar '%' t!"%25" s := by
    simp [replaceChar, escapedOut]
  rw [hr]
  by_cases hc : c = '('
  · subst hc
    show Xri.escapeXrefs ('(' :: replaceChar '%' t!"%25" s) = '(' :: Xri.escapeXrefs (replaceChar '%' t!"%25" s)
    rw [Xri.escapeXrefs, if_pos rfl]
    split
    · next i r hcut =>
      rw [cut_pct] at hcut
      cases hcs : cut ')' s with
      | none => rw [hcs] at hcut; cases hcut
      | some p =>
        rw [hcs] at hcut
        simp only [Option.map_some, Option.some.injEq, Prod.mk.injEq] at hcut
        rw [if_pos]
        rw [← hcut.1, newline_pct]
        exact h rfl p.1 p.2 hcs
    · rfl
  · rw [Xri.escapeXrefs_append]
    rw [escapedOut]
    split
    · decide
    · simpa using fun e => hc e.symm

theorem noXref_tail {c : Char} {s : Str} (h : NoXrefIn (c :: s)) : NoXrefIn s :=
  fun p q e => h (c :: p) q (by rw [e]; rfl)

/-- **C72**: up to and including the first cross-reference of a name, percent signs are escaped, and within the
    cross-reference slashes, question marks and number signs too; no other character is changed -/
theorem c72_escape_first (pre inner after : Str) (hp : NoXrefIn pre) (hi : ')' ∉ inner) (hn : '\n' ∉ inner) :
    Xri.escapeForIRI (pre ++ '(' :: inner ++ ')' :: after) =
      pre.flatMap escapedOut ++ '(' :: inner.flatMap escapedIn ++ ')' :: Xri.escapeForIRI after := by
  induction pre with
  | nil =>
    simp only [List.nil_append, List.flatMap_nil]
    rw [Xri.escapeForIRI, Xri.escapeForIRI]
    have hr : replaceChar '%' t!"%25" ('(' :: inner ++ ')' :: after) =
        '(' :: (replaceChar '%' t!"%25" (inner ++ ')' :: after)) := by simp [replaceChar]
    rw [hr, Xri.escapeXrefs, if_pos rfl]
    have hcut : cut ')' (replaceChar '%' t!"%25" (inner ++ ')' :: after)) =
        some (replaceChar '%' t!"%25" inner, replaceChar '%' t!"%25" after) := by
      rw [cut_pct, cut_append _ _ _ hi]; rfl
    split
    · next i r h =>
      rw [hcut] at h
      simp only [Option.some.injEq, Prod.mk.injEq] at h
      obtain ⟨rfl, rfl⟩ := h
      rw [if_neg (by rw [newline_pct]; simpa using hn), escapeXref_in]
    · next h => rw [hcut] at h; cases h
  | cons c pre ih =>
    simp only [List.cons_append, List.flatMap_cons, List.append_assoc]
    have ih := ih (noXref_tail hp)
    simp only [List.cons_append, List.append_assoc] at ih
    rw [escape_cons, ih]
    rintro rfl i r hcut
    obtain ⟨a, b, rfl, ha⟩ := hp [] pre rfl
    obtain ⟨he, hi'⟩ := (cut_eq_some_iff _ _ _ _).1 hcut
    rw [List.append_assoc, List.append_eq_append_iff] at he
    rcases he with ⟨t, ht, he⟩ | ⟨t, ht, he⟩
    · cases t with
      | nil => simp only [List.nil_append, List.cons_append, List.cons.injEq] at he; exact absurd he.1 (by decide)
      | cons x t =>
        simp only [List.cons_append, List.cons.injEq] at he
        rw [ht, ← he.1]; simp
    · cases t with
      | nil => simp only [List.nil_append, List.cons_append, List.cons.injEq] at he; exact absurd he.1 (by decide)
      | cons x t =>
        simp only [List.cons_append, List.cons.injEq] at he
        exact absurd (by rw [ht, ← he.1]; simp) ha

/-- **C72**: in a name without cross-reference nothing is escaped but percent signs -/
theorem c72_escape_none (x : Str) (h : ∀ p q, x = p ++ '(' :: q → ')' ∉ q ∨ ∃ a b, q = a ++ '\n' :: b ∧ ')' ∉ a) :
    Xri.escapeForIRI x = x.flatMap escapedOut := by
  induction x with
  | nil => rw [Xri.escapeForIRI]; simp [replaceChar, Xri.escapeXrefs]
  | cons c s ih =>
    have ih := ih fun p q e => h (c :: p) q (by rw [e]; rfl)
    rw [escape_cons, ih, List.flatMap_cons]
    rintro rfl i r hcut
    obtain ⟨he, hi'⟩ := (cut_eq_some_iff _ _ _ _).1 hcut
    rcases h [] s rfl with h1 | ⟨a, b, hs, ha⟩
    · exact absurd (by rw [he]; simp) h1
    · rw [he, List.append_eq_append_iff] at hs
      rcases hs with ⟨t, ht, hs⟩ | ⟨t, ht, hs⟩
      · cases t with
        | nil => simp only [List.nil_append, List.cons.injEq] at hs; exact absurd hs.1 (by decide)
        | cons x t =>
          simp only [List.cons_append, List.cons.injEq] at hs
          exact absurd (by rw [ht, ← hs.1]; simp) ha
      · cases t with
        | nil => simp only [List.nil_append, List.cons.injEq] at hs; exact absurd hs.1 (by decide)
        | cons x t =>
          simp only [List.cons_append, List.cons.injEq] at hs
          rw [ht, ← hs.1]; simp

/-- a parenthesis that is closed on another line, then a cross-reference -/
example : NoXrefIn t!"@a*(b\n/" ∧ Xri.escapeForIRI (t!"@a*(b\n/" ++ '(' :: t!"http://x/?%" ++ ')' :: t!"/c#") =
    t!"@a*(b\n/(http:%2F%2Fx%2F%3F%25)/c#" := by
  have hp : NoXrefIn t!"@a*(b\n/" := by
    intro p q h
    rcases p with _ | ⟨_, _ | ⟨_, _ | ⟨_, _ | ⟨_, _ | ⟨_, _ | ⟨_, _ | ⟨_, p⟩⟩⟩⟩⟩⟩⟩ <;>
      simp only [List.nil_append, List.cons_append, List.cons.injEq] at h <;> first
      | (obtain ⟨-, -, -, -, rfl⟩ := h; exact ⟨t!"b", t!"/", rfl, by decide⟩)
      | simp at h
  refine ⟨hp, ?_⟩
  rw [c72_escape_first _ _ _ hp (by decide) (by decide), c72_escape_none]
  · decide
  · intro p q h
    rcases p with _ | ⟨_, _ | ⟨_, _ | ⟨_, p⟩⟩⟩ <;> simp at h

end Props
