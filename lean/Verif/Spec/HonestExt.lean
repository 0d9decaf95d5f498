import Verif.Model.Extend
import Verif.Spec.Clash
import Verif.Spec.Honest
/-! # Extensions that can be attached to a message -/

namespace Spec
open Py Message Extend

/-- Extensions that can all be attached to one message of OpenID version `version` and read by a program with the registered
    aliases `reg`: they have different namespaces and aliases; none has the alias of a field of OpenID, or the namespace of
    OpenID; OpenID 1 does not declare namespaces, so that the reader must know the aliases. -/
structure Attachable (version : Str) (reg : Dict Str Str) (l : List Extension) : Prop where
  uris : (l.map (·.uri)).Nodup
  aliases : (l.map (·.alias)).Nodup
  names : ∀ x ∈ l, x.alias ∉ reserved ∧ '.' ∉ x.alias ∧ x.uri ≠ version ∧ x.uri ≠ t!"sreg"
  data : ∀ x ∈ l, Dict.WF x.args
  known : version = t!"http://openid.net/signon/1.0" → ∀ x ∈ l, reg.get? x.alias = some x.uri

/-- what can be in the list of what is signed -/
def Fieldable (s : Str) : Prop := ':' ∉ s ∧ ',' ∉ s ∧ Line s

instance : DecidablePred Fieldable := fun s => inferInstanceAs (Decidable (_ ∧ _ ∧ _))

/-- extensions whose data can be signed -/
def Signable (l : List Extension) : Prop :=
  ∀ x ∈ l, Fieldable x.alias ∧ Line x.uri ∧ ∀ p ∈ x.args, Fieldable p.1 ∧ Line p.2

instance : DecidablePred Signable := fun l => inferInstanceAs (Decidable (∀ x ∈ l, _))

/-- Asking for the data of a namespace gives, for each of the extensions, what it was attached with; and for any other
    namespace nothing. -/
def Gives (version : Str) (l : List Extension) (ask : Str → Dict Str Str → Prop) : Prop :=
  (∀ x ∈ l, ∃ d, ask x.uri d ∧ Dict.WF d ∧ Dict.Same d x.args) ∧
  ∀ u, u ≠ version → u ≠ t!"sreg" → u ∉ l.map (·.uri) → ask u []

end Spec
