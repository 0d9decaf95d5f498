import Verif.Lemmas.Py
import Verif.Spec.Store
/-! # Lemmas on dictionaries and histories used for all stores -/

namespace Py.Dict
variable {α β : Type} [DecidableEq α]

theorem WF_delAll (ks : List α) (d : Dict α β) (hd : WF d) : WF (ks.foldl del d) := by
  induction ks generalizing d with
  | nil => exact hd
  | cons k ks ih => exact ih _ (WF_del d hd k)

theorem get?_delAll (ks : List α) (d : Dict α β) (hd : WF d) (b : α) :
    get? (ks.foldl del d) b = if b ∈ ks then none else get? d b := by
  induction ks generalizing d with
  | nil => simp
  | cons k ks ih =>
    rw [List.foldl_cons, ih _ (WF_del d hd k), get?_del d hd]
    by_cases h1 : b ∈ ks <;> by_cases h2 : b = k <;> simp [h1, h2]
    all_goals grind

theorem get?_map (d : Dict α β) {γ : Type} (f : β → γ) (a : α) :
    get? (d.map fun p => (p.1, f p.2)) a = (get? d a).map f := by
  induction d with
  | nil => rfl
  | cons p r ih =>
    obtain ⟨k, v⟩ := p
    simp only [List.map_cons, get?_cons, ih]
    split <;> rfl

omit [DecidableEq α] in
theorem keys_map (d : Dict α β) {γ : Type} (f : β → γ) :
    keys (d.map fun p => (p.1, f p.2)) = keys d := by
  simp [keys]

omit [DecidableEq α] in
theorem WF_map (d : Dict α β) {γ : Type} (f : β → γ) (hd : WF d) :
    WF (d.map fun p => (p.1, f p.2)) := by
  unfold WF; rw [keys_map]; exact hd

end Py.Dict

namespace Store
open Py

theorem after_append {σ : Type} (step : σ → Event → σ × Answer) (s : σ) (a b : List Event) :
    after step s (a ++ b) = after step (after step s a) b := by
  simp [after, List.foldl_append]

theorem after_snoc {σ : Type} (step : σ → Event → σ × Answer) (s : σ) (a : List Event) (e : Event) :
    after step s (a ++ [e]) = (step (after step s a) e).1 := by
  simp [after, List.foldl_append]

theorem held_snoc (c : Clock) (a : List Event) (e : Event) :
    held c (a ++ [e]) = heldStep c (held c a) e := by
  simp [held, List.foldl_append]

/-- induction on the end of a history -/
theorem snoc_induction {P : List Event → Prop} (nil : P []) (snoc : ∀ l e, P l → P (l ++ [e])) :
    ∀ l, P l := by
  intro l
  rw [← List.reverse_reverse l]
  generalize l.reverse = r
  induction r with
  | nil => exact nil
  | cons e r ih => rw [List.reverse_cons]; exact snoc _ _ ih

theorem nonceTaken_snoc {σ : Type} (step : σ → Event → σ × Answer) (s : σ) (h : List Event) (e : Event)
    (u : Str) (t : Int) (salt : Str) :
    NonceTaken step s (h ++ [e]) u t salt ↔
      NonceTaken step s h u t salt ∨
        (e.2 = .useNonce u t salt ∧ (step (after step s h) e).2 = .bool true) := by
  constructor
  · rintro ⟨pre, now, post, heq, hr⟩
    rcases List.eq_nil_or_concat post with rfl | ⟨post', e', rfl⟩
    · obtain ⟨rfl, he⟩ := List.append_inj' heq rfl
      obtain rfl := List.cons.inj he |>.1
      exact .inr ⟨rfl, hr⟩
    · rw [List.concat_eq_append, ← List.cons_append, ← List.append_assoc] at heq
      obtain ⟨rfl, -⟩ := List.append_inj' heq rfl
      exact .inl ⟨pre, now, post', rfl, hr⟩
  · rintro (⟨pre, now, post, rfl, hr⟩ | ⟨he, hr⟩)
    · exact ⟨pre, now, post ++ [e], by simp, hr⟩
    · obtain ⟨now, op⟩ := e
      simp only at he
      subst he
      exact ⟨h, now, [], rfl, hr⟩

theorem Monotone.snoc {h : List Event} {e : Event} (m : Monotone (h ++ [e])) :
    Monotone h ∧ ∀ x ∈ h, x.1 ≤ e.1 := by
  unfold Monotone at *
  rw [List.pairwise_append] at m
  exact ⟨m.1, fun x hx => m.2.2 x hx e (by simp)⟩

theorem answers_getElem {σ : Type} (step : σ → Event → σ × Answer) (s : σ) (pre : List Event) (e : Event)
    (post : List Event) :
    (answers step s (pre ++ e :: post))[pre.length]? = some (step (after step s pre) e).2 := by
  induction pre generalizing s with
  | nil => rfl
  | cons x r ih => simp [answers, ih, after]

end Store
