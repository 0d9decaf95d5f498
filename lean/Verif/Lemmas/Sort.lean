import Verif.Lemmas.Py
/-! # Stability of sorting -/

namespace Py
variable {α : Type}

theorem filter_insertBy (le : α → α → Bool) (p : α → Bool) (x : α) (l : List α)
    (h : ∀ y, p x = true → p y = true → le x y = true) :
    (insertBy le x l).filter p = (x :: l).filter p := by
  induction l with
  | nil => rfl
  | cons y r ih =>
    rw [insertBy]
    split
    · rfl
    · next hle =>
      rw [List.filter_cons, ih, List.filter_cons, List.filter_cons, List.filter_cons]
      by_cases hx : p x = true
      · have hy : ¬ p y = true := fun hy => hle (h y hx hy)
        simp [hx, hy]
      · simp [hx]

/-- elements that are equivalent keep their order -/
theorem filter_sortBy (le : α → α → Bool) (p : α → Bool) (l : List α)
    (h : ∀ x y, p x = true → p y = true → le x y = true) : (sortBy le l).filter p = l.filter p := by
  induction l with
  | nil => rfl
  | cons x r ih =>
    rw [sortBy, filter_insertBy le p x _ (h x), List.filter_cons, List.filter_cons, ih]

theorem insertBy_le (le : α → α → Bool) (x : α) (l : List α) (h : ∀ y ∈ l, le x y = true) : insertBy le x l = x :: l := by
  cases l with
  | nil => rfl
  | cons y r => rw [insertBy, if_pos (h y (by simp))]

/-- a sorted list is not changed -/
theorem sortBy_sorted (le : α → α → Bool) (l : List α) (h : l.Pairwise fun a b => le a b = true) : sortBy le l = l := by
  induction l with
  | nil => rfl
  | cons x r ih =>
    rw [List.pairwise_cons] at h
    rw [sortBy, ih h.2, insertBy_le le x r h.1]

/-- sorting pairs by the first component, when that is a function of the second -/
theorem sortBy_map {β : Type} (f : β → α) (le : α → α → Bool) (l : List β) :
    sortBy le (l.map f) = (sortBy (fun a b => le (f a) (f b)) l).map f := by
  induction l with
  | nil => rfl
  | cons x r ih =>
    rw [List.map_cons, sortBy, ih, sortBy]
    generalize sortBy (fun a b => le (f a) (f b)) r = s
    induction s with
    | nil => rfl
    | cons y t ih' =>
      rw [List.map_cons, insertBy, insertBy]
      split
      · simp
      · rw [ih', List.map_cons]

end Py
