import Verif.Lemmas.Path
/-! # C25: dot segments are removed from paths

`removeDotSegments` models `openid.urinorm.remove_dot_segments`; `Spec.absPath` writes a list of
segments as `/s₁/s₂/...`, `Spec.walk` follows segments directory by directory, `Spec.IsDot` is
"`.` or `..`".  Segments of a path are the pieces between slashes, `splitOn '/'`. -/

namespace Props
open Py Urinorm

/-- On an absolute path the function computes exactly where the segments lead, starting at the
    root; in particular `..` at the root stays at the root. -/
theorem c25_walks (segs : List Str) (h : ∀ s ∈ segs, '/' ∉ s) :
    removeDotSegments (Spec.absPath segs) = Spec.absPath (Spec.walk [] segs) :=
  rds_abs segs h

example : (∀ s ∈ [t!"a", t!"..", t!"..", t!"b", t!"."], '/' ∉ s) ∧
    removeDotSegments t!"/a/../../b/." = t!"/b/" := by decide

/-- Every absolute path is covered by `c25_walks`. -/
theorem c25_covers (q : Str) :
    ∃ segs, '/' :: q = Spec.absPath segs ∧ ∀ s ∈ segs, '/' ∉ s :=
  ⟨_, (abs_eq_absPath q).1, (abs_eq_absPath q).2⟩

/-- No `.` or `..` segment is left, whatever the path (absolute or not). -/
theorem c25_no_dot_segments (p : Str) :
    ∀ s ∈ splitOn '/' (removeDotSegments p), s ≠ t!"." ∧ s ≠ t!".." := fun s hs =>
  ⟨fun e => rds_no_dot p s hs (.inl e), fun e => rds_no_dot p s hs (.inr e)⟩

example : t!".." ∈ splitOn '/' t!"../x/./../.." ∧ removeDotSegments t!"../x/./../.." = t!"/" := by
  decide

/-- A path without dot segments is unchanged. -/
theorem c25_unchanged (p : Str) (h : ∀ s ∈ splitOn '/' p, s ≠ t!"." ∧ s ≠ t!"..") :
    removeDotSegments p = p :=
  rds_of_no_dot p (fun s hs hd => hd.elim (h s hs).1 (h s hs).2)

example : ∀ s ∈ splitOn '/' t!"/a//b/...", s ≠ t!"." ∧ s ≠ t!".." := by decide

theorem c25_idempotent (p : Str) :
    removeDotSegments (removeDotSegments p) = removeDotSegments p :=
  rds_of_no_dot _ (rds_no_dot p)

/-- An absolute path stays absolute (and is not empty). -/
theorem c25_absolute (q : Str) : ∃ q', removeDotSegments ('/' :: q) = '/' :: q' := by
  rw [(abs_eq_absPath q).1, rds_abs _ (abs_eq_absPath q).2]
  cases h : Spec.walk [] (splitOn '/' q) with
  | nil => exact absurd h (walk_ne_nil _ _ (splitOn_ne_nil _ _))
  | cons s r => exact ⟨_, rfl⟩

/-- `..` at the root stays at the root. -/
theorem c25_root (q : Str) :
    removeDotSegments (t!"/.." ++ '/' :: q) = removeDotSegments ('/' :: q) := by
  have h := abs_eq_absPath q
  have e : t!"/.." ++ '/' :: q = Spec.absPath (t!".." :: splitOn '/' q) := by
    rw [absPath_cons, h.1]
  rw [e, h.1, rds_abs _ h.2, rds_abs _ (by intro s hs; rcases List.mem_cons.1 hs with rfl | hs
                                           · decide
                                           · exact h.2 s hs)]
  cases hq : splitOn '/' q with
  | nil => exact absurd hq (splitOn_ne_nil _ _)
  | cons s r => rfl

/-- A directory entered and left again has no effect. -/
theorem c25_up_cancels (a : List Str) (x q : Str) (ha : ∀ s ∈ a, '/' ∉ s) (hx : '/' ∉ x)
    (hd : x ≠ t!"." ∧ x ≠ t!"..") :
    removeDotSegments (Spec.absPath a ++ '/' :: x ++ t!"/.." ++ '/' :: q) =
      removeDotSegments (Spec.absPath a ++ '/' :: q) := by
  have h := abs_eq_absPath q
  have e1 : Spec.absPath a ++ '/' :: x ++ t!"/.." ++ '/' :: q =
      Spec.absPath (a ++ x :: t!".." :: splitOn '/' q) := by
    rw [absPath_append, absPath_cons, absPath_cons, h.1]; simp
  have e2 : Spec.absPath a ++ '/' :: q = Spec.absPath (a ++ splitOn '/' q) := by
    rw [absPath_append, h.1]
  have hm : ∀ s ∈ a ++ x :: t!".." :: splitOn '/' q, '/' ∉ s := by
    intro s hs
    simp only [List.mem_append, List.mem_cons] at hs
    rcases hs with hs | rfl | rfl | hs
    · exact ha s hs
    · exact hx
    · decide
    · exact h.2 s hs
  rw [e1, e2, rds_abs _ hm, rds_abs _ (fun s hs => hm s (by
    simp only [List.mem_append, List.mem_cons] at hs ⊢; rcases hs with hs | hs <;> simp [hs]))]
  congr 1
  obtain ⟨y, r, hq⟩ : ∃ y r, splitOn '/' q = y :: r := by
    cases hq : splitOn '/' q with
    | nil => exact absurd hq (splitOn_ne_nil _ _)
    | cons y r => exact ⟨y, r, rfl⟩
  rw [hq]
  generalize ([] : List (List Char)) = here
  clear e1 e2 hm ha
  induction a generalizing here with
  | nil =>
    simp only [List.nil_append]
    rw [Spec.walk, if_neg hd.1, if_neg hd.2, Spec.walk, if_neg (by decide), if_pos rfl]
    simp
  | cons s a ih =>
    cases a with
    | nil =>
      simp only [List.nil_append, List.cons_append] at ih ⊢
      rw [Spec.walk]
      conv => rhs; rw [Spec.walk]
      split
      · exact ih _
      · split <;> exact ih _
    | cons t a =>
      simp only [List.cons_append] at ih ⊢
      rw [Spec.walk]
      conv => rhs; rw [Spec.walk]
      split
      · exact ih _
      · split <;> exact ih _

example : removeDotSegments t!"/a/b/../c" = t!"/a/c" ∧ removeDotSegments t!"/../../c" = t!"/c" := by
  decide

/-- The loop of the code terminates: it makes at most one iteration per character, and its result
    does not depend on the iteration bound of the model. -/
theorem c25_terminates (p : Str) (n : Nat) (h : p.length ≤ n) :
    removeDotSegments p = (rdsLoop n [] p).reverse.flatten := by
  rw [removeDotSegments, rdsLoop_fuel p n h]

end Props
