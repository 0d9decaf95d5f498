import Verif.Lemmas.FileNonce
/-! # A small program logic for programs of system calls, with a ghost state -/

namespace Files
open Py

section
variable {σ : Type} (need : σ → Call → Prop) (next : σ → (c : Call) → c.Reply → σ → Prop)

/-- every call the program may make is permitted in the ghost state it is made in, and the end satisfies `Q` -/
def Safe (Q : Except PyErr α → σ → Prop) : σ → Prog α → Prop
  | g, .done r => Q r g
  | g, .sys c k => need g c ∧ ∀ r g', next g c r g' → Safe Q g' (k r)

variable {need next}

theorem Safe.weaken {Q Q' : Except PyErr α → σ → Prop} {g : σ} {p : Prog α} (h : Safe need next Q g p)
    (hq : ∀ r g, Q r g → Q' r g) : Safe need next Q' g p := by
  induction p generalizing g with
  | done r => exact hq _ _ h
  | sys c k ih => exact ⟨h.1, fun r g' hn => ih r (h.2 r g' hn)⟩

theorem Safe.bind {Q : Except PyErr α → σ → Prop} {Q' : Except PyErr β → σ → Prop} {g : σ} {p : Prog α}
    {f : α → Prog β} (h : Safe need next Q g p) (hf : ∀ a g, Q (.ok a) g → Safe need next Q' g (f a))
    (he : ∀ e g, Q (.error e) g → Q' (.error e) g) : Safe need next Q' g (p.bind f) := by
  induction p generalizing g with
  | done r =>
    cases r with
    | ok a => exact hf a g h
    | error e => exact he e g h
  | sys c k ih => exact ⟨h.1, fun r g' hn => ih r (h.2 r g' hn)⟩

theorem Safe.tryExcept {Q Q' : Except PyErr α → σ → Prop} {g : σ} {p : Prog α} {f : PyErr → Prog α}
    (h : Safe need next Q g p) (hf : ∀ a g, Q (.ok a) g → Q' (.ok a) g)
    (he : ∀ e g, Q (.error e) g → Safe need next Q' g (f e)) : Safe need next Q' g (p.tryExcept f) := by
  induction p generalizing g with
  | done r =>
    cases r with
    | ok a => exact hf a g h
    | error e => exact he e g h
  | sys c k ih => exact ⟨h.1, fun r g' hn => ih r (h.2 r g' hn)⟩

end
end Files
