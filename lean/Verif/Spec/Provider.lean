import Verif.Model.Provider
import Verif.Spec.ServerAnswer
/-! # What is asked of a provider that decides by what its visitors said -/

namespace Provider
open Py Message Server

/-- a visit that was made: who, for what, what was shown -/
structure Event where
  user : Option Str
  visit : Visit
  shown : Except Err Shown

/-- what happened to the provider since it was started, the last visit first, and what it keeps -/
inductive History (W : World) (base : Str) (opEndpoint : Option Str) : List Event → Site → Prop where
  | start : History W base opEndpoint [] ⟨[], []⟩
  | visit {h : List Event} {s : Site} (hh : History W base opEndpoint h s) (E : Env) (user : Option Str) (v : Visit) :
      History W base opEndpoint (⟨user, v, (visit W E base opEndpoint s user v).1⟩ :: h)
        (visit W E base opEndpoint s user v).2

/-- The visitor brought this request, it was not answered at once, and the visitor was not asked about another one
    since. -/
def Pending (W : World) (opEndpoint : Option Str) (h : List Event) (user : Option Str) (r : CheckIDRequest) : Prop :=
  ∃ later e earlier q E, h = later ++ e :: earlier ∧ e.user = user ∧ e.visit = .endpoint q ∧
    decode W E opEndpoint q = .ok (some (.checkId r)) ∧ r.immediate = false ∧
    (∀ resp u, e.shown ≠ .ok (.respond resp u)) ∧
    ∀ e' ∈ later, e'.user = user → ∀ r', e'.shown ≠ .ok (.decide r')

/-- the identity a yes to a request is about: the one asked for, or the one the visitor entered, if the visitor is to
    choose -/
def About (base : Str) (r : CheckIDRequest) (q : Dict Str Str) (identity : Option Str) : Prop :=
  if r.identity = some t!"http://specs.openid.net/auth/2.0/identifier_select" then
    ∃ x, q.get? t!"identifier" = some x ∧ identity = some (base ++ t!"id/" ++ x)
  else identity = r.identity

/-- Some visitor said yes, and to remember it, to a request they had brought before, about that identity and trust
    root. -/
def Remembered (W : World) (base : Str) (opEndpoint : Option Str) (h : List Event) (identity trustRoot : Option Str) : Prop :=
  ∃ later e earlier q r, h = later ++ e :: earlier ∧ e.visit = .allow q ∧ q.has t!"yes" = true ∧
    q.get? t!"remember" = some t!"yes" ∧ Pending W opEndpoint earlier e.user r ∧ r.trustRoot = trustRoot ∧
    About base r q identity

/-- The response is the positive answer to the request, about that identity, with nothing of the user but the name, and
    that only if the request asks for a nickname. -/
def SaysYes (W : World) (r : CheckIDRequest) (identity user : Option Str) (resp : Response) : Prop :=
  resp.request = .checkId r ∧
  ∃ E told resp0 ns data, r.answer W E true none told none = .ok resp0 ∧
    resp0.fields.getArg .openid t!"mode" = .ok (some t!"id_res") ∧
    resp0.fields.getArg .openid t!"identity" = .ok (Spec.given identity) ∧
    Extend.extendResponse resp0 [⟨ns, t!"sreg", data⟩] = .ok resp ∧
    (data = [] ∨ ∃ name req, user = some name ∧ data = [(t!"nickname", name)] ∧
      Sreg.fromOpenIDRequest r.message = .ok req ∧ t!"nickname" ∈ req.allRequestedFields)

/-- The response is the negative answer to the request. -/
def SaysNo (W : World) (r : CheckIDRequest) (resp : Response) : Prop :=
  ∃ E, r.answer W E false none none none = .ok resp

end Provider
