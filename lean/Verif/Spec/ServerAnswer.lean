import Verif.Spec.Form
import Verif.Spec.ServerCodec
/-! # What the answers of a server carry, and how they are sent -/

namespace Spec
open Py Message Store Server

/-- The message is of that version of OpenID and carries these OpenID arguments and nothing else; and they are what is
    sent of it, with a declaration of the version unless that is OpenID 1. -/
structure Carries (m : Msg) (oid : Str) (d : Str → Option Str) : Prop where
  version : m.getOpenIDNamespace = some oid
  args : ∀ k, m.getArg .openid k = .ok (d k)
  only : ∀ ns k v, ((ns, k), v) ∈ m.args → ns = .uri oid ∧ d k = some v
  sent : ∀ name v, (name, v) ∈ m.toPostArgs ↔ ∃ k, name = t!"openid." ++ k ∧
    (d k = some v ∨ d k = none ∧ k = t!"ns" ∧ v = oid ∧
      oid ≠ t!"http://openid.net/signon/1.0" ∧ oid ≠ t!"http://openid.net/signon/1.1")

/-- the arguments listed, where they have a value -/
def argsOf : List (Str × Option Str) → Str → Option Str
  | [], _ => none
  | (k, v) :: rest, x => if x = k then v else argsOf rest x

/-- a message too long for a URL, which OpenID 2 (and only that) sends as a form -/
def TooLong (m : Msg) (url : Str) : Prop :=
  m.getOpenIDNamespace = some t!"http://specs.openid.net/auth/2.0" ∧ 2047 < (m.toURL url).length

/-- a message that can be written as a form for that URL -/
def Writable (m : Msg) (url : Str) : Prop := Legible url ∧ ∀ p ∈ m.toPostArgs, Legible p.1 ∧ Legible p.2

instance (m : Msg) (url : Str) : Decidable (Writable m url) := inferInstanceAs (Decidable (_ ∧ ∀ p ∈ m.toPostArgs, _))

/-- How a message goes to a URL through the browser: by redirect, or in a page whose only form posts the message, at
    once. -/
def sentTo (m : Msg) (url : Str) (w : WebResponse) : Prop :=
  TooLong m url ∧ w.code = 200 ∧ w.location = none ∧ Posts w.body url m.toPostArgs ∧ SubmitsItself w.body ∨
  ¬ TooLong m url ∧ w = ⟨302, some (m.toURL url), []⟩

/-- Identity and claimed identifier of a positive answer: those asked for, whatever the application says (and it may
    only say the same, up to normalisation); those the application gives, if it was to choose; none, if none was
    asked for. -/
def Asserts (U : Url.Uni) (r : CheckIDRequest) (identity claimedId : Option Str) (i c : Option Str) : Prop :=
  if r.identity = some t!"http://specs.openid.net/auth/2.0/identifier_select" then
    (∃ x, given identity = some x ∧ i = some x ∧ c = (given claimedId).or (some x))
  else match given r.identity with
    | some y => i = some y ∧ c = r.claimedId ∧
        ∀ x, given identity = some x → x = y ∨ ∃ n, Urinorm.urinorm U x = .ok n ∧ Urinorm.urinorm U y = .ok n
    | none => given identity = none ∧ i = none ∧ c = none

/-- A message is of OpenID 1. -/
def MsgV1 (m : Msg) : Prop :=
  m.getOpenIDNamespace = some t!"http://openid.net/signon/1.0" ∨
  m.getOpenIDNamespace = some t!"http://openid.net/signon/1.1"

end Spec
