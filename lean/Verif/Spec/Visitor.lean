import Verif.Model.Visitor
import Verif.Spec.Consumer
/-! # What the example relying party may show, and to whom -/

namespace Spec
open Py Message Consumer Visitor

/-- one visit of a history: the surroundings at that time, the visit, the calls it led to, and what was shown -/
structure Visited where
  env : Env
  setup : Setup
  fresh : Str
  visit : Visit
  calls : List Ev
  reply : Visitor.Reply

def Visited.sid (v : Visited) : Str := v.visit.cookie.getD v.fresh

/-- The sessions that can be after these visits, one after the other, beginning with none. -/
inductive Reached (W : World) (C : Conf) : List Visited → Sessions → Prop where
  | start : Reached W C [] []
  | visit {past : List Visited} {ss ss' : Sessions} {v : Visited} : Reached W C past ss →
      Consumer.Runs (Visitor.visit W C v.env v.setup ss v.fresh v.visit) v.calls (.ok (ss', v.reply)) → Reached W C (past ++ [v]) ss'

/-- the message of a page says that somebody was verified -/
def SaysVerified (p : Page) : Prop := ∃ msg contents sreg pape, p = .page msg contents sreg pape ∧
  t!"You have successfully verified " <+: msg

/-- this visit brought this response, and was told that an identifier was verified -/
def Visited.toldOf (q : Dict Str Str) (v : Visited) : Bool :=
  match v.visit.path, v.reply.page with
  | .process q' _ _, .page msg _ _ _ => decide (q' = q) && t!"You have successfully verified ".isPrefixOf msg
  | _, _ => false

/-- a text that is no markup wherever it stands in a page, outside of tags or between double quotes -/
def Inert (quoted : Bool) (s : Str) : Prop := '<' ∉ s ∧ '>' ∉ s ∧ (quoted = true → '"' ∉ s)

end Spec
