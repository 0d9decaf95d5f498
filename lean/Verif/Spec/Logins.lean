import Verif.Spec.Login
import Verif.Spec.HonestExt
/-! # Any number of logins under way at once -/

namespace Spec
open Py Message Association Cryptutil Store Discover Consumer Extend

/-- A relying party with its store, and a provider with its own at the address `url`; and the rest of the web. -/
structure Venue (σ τ : Type) where
  W : Consumer.World
  C : Conf
  stepC : σ → Event → σ × Outcome
  viewC : σ → AssocMap
  used : σ → Str → Int → Str → Prop
  ranked : σ → Str → Prop
  V : Server.World
  n : Negotiator
  text : Server.Reason → Option Msg → Str
  stepP : τ → Event → τ × Outcome
  viewP : τ → AssocMap
  url : Str
  pages : Except Server.Err Server.Page → Except PyErr Http
  elsewhere : Str → Str → Except PyErr Http

/-- What the user says when asked: yes; no; or, when the provider is to choose, which identifier it is to be: the name that
    the provider has for it, and the identifier itself if that is another. -/
inductive Verdict where
  | yes
  | no
  | chooses (identity : Str) (claimed : Option Str)

/-- the identifier that was chosen -/
def chosen (identity : Str) (claimed : Option Str) : Str :=
  match claimed with
  | none | some [] => identity
  | some c => c

/-- One user's login: what they type and what is discovered; what the relying party asks for, what the user says, and what
    the provider tells about them; what discovery would find now; and when each of the three steps happens, and what is drawn there: at `E0` the relying party begins, and
    the provider makes an association with it if it wants one, at `E1`; at `Es` the provider answers; at `E2` the user is back,
    and at `E3` the provider is asked about its answer, if it has to be. -/
structure Attempt where
  typed : Str
  disc : Str → Except PyErr (Str × List Endpoint)
  name : Str
  e : Endpoint
  more : List Endpoint
  anonymous : Bool
  token : Option Endpoint
  realm : Str
  returnTo : Str
  current : Str
  immediate : Bool
  asks : List Extension
  says : Verdict
  tells : List Extension
  disc' : Str → Except PyErr (Str × List Endpoint)
  E0 : Consumer.Env
  E1 : Server.Env
  Es : Server.Env
  E2 : Consumer.Env
  E3 : Server.Env

/-- how far a login is: with the provider (`away`), on the way back with its answer, or over -/
inductive Phase where
  | waiting
  | away (s : UserSession) (url : Str)
  | back (s : UserSession) (r : Server.CheckIDRequest) (w : Server.WebResponse)
  | over (result : Except Consumer.Err (UserSession × Except Consumer.Err Consumer.Response))
  | failed

/-- the two stores, and how far each login is -/
structure Scene (σ τ ι : Type) where
  rp : σ
  op : τ
  phase : ι → Phase

/-- What can happen next: a login begins; its request reaches the provider, as `q`, and the user decides; its answer reaches
    the relying party, as `q`; or anything else that the relying party and the provider do, with others. -/
inductive Move (σ τ ι : Type) where
  | begin (i : ι)
  | answer (i : ι) (q : Dict Str Str)
  | complete (i : ι) (q : Dict Str Str)
  | other (rp : σ) (op : τ)

section
variable {σ τ ι : Type} [DecidableEq ι] (K : Venue σ τ) (L : ι → Attempt)

/-- the phase of one login changes -/
def Scene.put (S : Scene σ τ ι) (rp : σ) (op : τ) (i : ι) (p : Phase) : Scene σ τ ι :=
  ⟨rp, op, fun j => if j = i then p else S.phase j⟩

/-- `Consumer.begin`, the extensions attached, and `redirectURL` -/
def Scene.begins (S : Scene σ τ ι) (i : ι) : Scene σ τ ι :=
  let x := live K.stepC (L i).E0.now (webOf K.V (L i).E1 K.n K.text K.url K.stepP K.pages K.elsewhere) (L i).disc
    (Consumer.begin K.W K.C (L i).E0 ⟨(L i).token, none⟩ (L i).typed (L i).anonymous) S.rp S.op
  S.put x.1.1 x.1.2 i (match x.2 with
    | .ok (s, .ok req) =>
      match extendRequest req (L i).asks >>= fun req => req.redirectURL (L i).realm (some (L i).returnTo) (L i).immediate with
      | .ok url => .away s url
      | .error _ => .failed
    | _ => .failed)

/-- `CheckIDRequest.answer`, as the user says -/
def Verdict.answer (v : Verdict) (V : Server.World) (E : Server.Env) (r : Server.CheckIDRequest) : Except Server.Err Server.Response :=
  match v with
  | .yes => r.answer V E true none none none
  | .no => r.answer V E false none none none
  | .chooses identity claimed => r.answer V E true none (some identity) claimed

/-- the provider's endpoint asks its user; `answer`, the extensions attached, and `encodeResponse` -/
def Scene.answers (S : Scene σ τ ι) (i : ι) (s : UserSession) (q : Dict Str Str) : Scene σ τ ι :=
  let x := Server.Prog.run K.stepP (L i).Es.now S.op (Server.serverEndPoint K.V (L i).Es (some K.url) K.n K.text q)
  match x.2 with
  | .ok (.ask r) =>
    match (L i).says.answer K.V (L i).Es r with
    | .ok resp =>
      match extendResponse resp (L i).tells with
      | .ok resp' =>
        let y := Server.Prog.run K.stepP (L i).Es.now x.1 (Server.signingEncode K.V (L i).Es resp')
        S.put S.rp y.1 i (match y.2 with
          | .ok w => .back s r w
          | .error _ => .failed)
      | .error _ => S.put S.rp x.1 i .failed
    | .error _ => S.put S.rp x.1 i .failed
  | _ => S.put S.rp x.1 i .failed

/-- `Consumer.complete` -/
def Scene.completes (S : Scene σ τ ι) (i : ι) (s : UserSession) (q : Dict Str Str) : Scene σ τ ι :=
  let x := live K.stepC (L i).E2.now (webOf K.V (L i).E3 K.n K.text K.url K.stepP K.pages K.elsewhere) (L i).disc'
    (Consumer.complete K.W K.C (L i).E2 s q (L i).current) S.rp S.op
  S.put x.1.1 x.1.2 i (.over x.2)

/-- What else the two may do, with others or to clean up: what the relying party holds for this provider stays as it is; the
    provider loses nothing that is still good at `untilP`, and keeps what is new under its own handle; and the relying party
    accepts no nonce that it is to accept in one of the logins. -/
structure Harmless (untilP : Int) (S S' : Scene σ τ ι) : Prop where
  phase : S'.phase = S.phase
  held : ∀ h, K.viewC S'.rp K.url h = K.viewC S.rp K.url h
  rank : K.ranked S.rp K.url → K.ranked S'.rp K.url
  nonces : ∀ u t x, K.used S'.rp u t x → K.used S.rp u t x ∨ ∀ i, ¬ IsNonce K.W K.V (L i).e (L i).E0 (L i).Es u t x
  keeps : ∀ u h b, K.viewP S.op u h = some b → untilP ≤ b.issued + b.lifetime → K.viewP S'.op u h = some b
  handles : ∀ u h b, K.viewP S'.op u h = some b → b.handle = h

/-- one move after another; a request reaches the provider with the arguments of the URL that the relying party made, and an
    answer comes back in one of the ways a browser may bring it -/
def Goes (untilP : Int) : Scene σ τ ι → List (Move σ τ ι) → Scene σ τ ι → Prop
  | S, [], S' => S = S'
  | S, .begin i :: l, S' => S.phase i = .waiting ∧ Goes untilP (S.begins K L i) l S'
  | S, .answer i q :: l, S' => ∃ s url, S.phase i = .away s url ∧ Dict.WF q ∧ (∀ k, q.get? k = (parameters url).get? k) ∧
      Goes untilP (S.answers K L i s q) l S'
  | S, .complete i q :: l, S' => ∃ s r w, S.phase i = .back s r w ∧ Brings w q ∧ Goes untilP (S.completes K L i s q) l S'
  | S, .other rp op :: l, S' => Harmless K L untilP S ⟨rp, op, S.phase⟩ ∧ Goes untilP ⟨rp, op, S.phase⟩ l S'

/-- The two sides fit: they compute alike, and their stores work. -/
structure WorkTogether : Prop where
  uni : K.V.uni = K.W.uni
  mac : K.V.mac = K.W.mac
  signs : ∀ t k x, K.V.mac t k x ≠ []
  reg : ∀ alias uri, K.W.reg.get? alias = some uri → uri ≠ t!"sreg"
  regV : ∀ alias uri, K.V.reg.get? alias = some uri → uri ≠ t!"sreg"
  storeC : Keeps K.W.clock K.stepC K.viewC K.used K.ranked
  worksC : NeverFails K.stepC
  storeP : Faithful K.V.clock K.stepP K.viewP
  worksP : NeverFails K.stepP

/-- A login as it should be: the user's endpoint is this provider's; what is attached can be; and each step happens in time:
    before `untilC` by the clock of the relying party and before `untilP` by the provider's, when no association made in
    one of these logins has expired. -/
structure Proceeds (untilC untilP : Int) (a : Attempt) : Prop where
  found : a.disc a.typed = .ok (a.name, a.e :: a.more)
  /-- the user's own endpoint, or the provider's if the user is to be chosen; and then what is chosen names the provider too -/
  asked : match a.says with
    | .yes => Askable a.e
    | .no => (Askable a.e ∨ Choosing a.e ∧ a.anonymous = false) ∧ a.tells = [] ∧
        (a.immediate = true → versionOf a.e = t!"http://specs.openid.net/auth/2.0" ∧ a.anonymous = false)
    | .chooses identity claimed => Choosing a.e ∧ a.anonymous = false ∧ Plain identity ∧ Plain (chosen identity claimed) ∧
        ∃ name found d, a.disc' (chosen identity claimed) = .ok (name, found) ∧ d ∈ found ∧ d.serverUrl = K.url ∧
          Agrees K.W [t!"http://specs.openid.net/auth/2.0/signon"] d (chosen identity claimed) identity
  here : a.e.serverUrl = K.url
  anonymous : a.anonymous = true → versionOf a.e = t!"http://specs.openid.net/auth/2.0"
  asks : Attachable (versionOf a.e) K.V.reg a.asks
  tells : Attachable (versionOf a.e) K.W.reg a.tells ∧ Attachable (versionOf a.e) K.V.reg a.tells ∧ Signable a.tells
  returns : Returnable K.W.uni a.realm a.returnTo a.current
  can : K.C.hasStore = true → CanAssociate K.W K.V K.C K.n a.E0 a.E1
  salt : Line a.Es.salt
  calendar : a.E0.now / K.W.clock.tick < 253402300800 ∧ K.V.clock.seconds a.Es.now < 253402300800
  timeC : a.E0.seconds K.W < untilC ∧ a.E2.seconds K.W < untilC ∧ untilC ≤ a.E0.seconds K.W + 1209600
  timeP : a.E1.seconds K.V < untilP ∧ a.Es.seconds K.V ≤ a.E3.seconds K.V ∧ a.E3.seconds K.V < untilP ∧
    untilP ≤ a.E1.seconds K.V + 1209600 ∧ untilP ≤ a.Es.seconds K.V + 1209600
  recent : ∀ u t x, IsNonce K.W K.V a.e a.E0 a.Es u t x → K.W.clock.within 18000 a.E2.now t

/-- No two logins have the same nonce; and no handle is drawn twice. -/
structure Different : Prop where
  nonces : ∀ i j u t x, IsNonce K.W K.V (L i).e (L i).E0 (L i).Es u t x → IsNonce K.W K.V (L j).e (L j).E0 (L j).Es u t x → i = j
  shared : ∀ i j a b, Makes K.V (L i).E1 a → Makes K.V (L j).E1 b → a.handle = b.handle → i = j
  secret : ∀ i j a b, Makes K.V (L i).Es a → Makes K.V (L j).Es b → a.handle = b.handle → i = j
  apart : ∀ i j a b, Makes K.V (L i).E1 a → Makes K.V (L j).Es b → a.handle ≠ b.handle

/-- Before the first login begins: what the relying party holds for the provider the provider has too, until after the last
    login; none of it has a handle that is to be drawn; and none of the nonces was used. -/
structure Ready (untilC untilP : Int) (S : Scene σ τ ι) : Prop where
  waiting : ∀ i, S.phase i = .waiting
  step : InStep K.url (K.viewC S.rp) (K.viewP S.op)
  rank : K.ranked S.rp K.url
  handles : ∀ u h b, K.viewP S.op u h = some b → b.handle = h
  held : ∀ h a, K.viewC S.rp K.url h = some a → untilC ≤ a.issued + a.lifetime ∧
    (∃ b, K.viewP S.op t!"http://localhost/|normal" h = some b ∧ untilP ≤ b.issued + b.lifetime) ∧
    ∀ i b, Makes K.V (L i).E1 b ∨ Makes K.V (L i).Es b → h ≠ b.handle
  nonces : ∀ i u t x, IsNonce K.W K.V (L i).e (L i).E0 (L i).Es u t x → ¬ K.used S.rp u t x

end

/-- A completed login, as it should be.  If the user said yes, the relying party knows them, or just the provider if it asked
    for no identity; it finds signed what the provider attached; and nothing is left in the session but after an anonymous
    login.  If the provider was to choose, the relying party knows whom it chose, by an endpoint that names the provider.  If
    the user said no, it is told so, or where the user can be asked if it wanted an answer at once. -/
def EndsWell (W : Consumer.World) (a : Attempt) (r : Except Consumer.Err (UserSession × Except Consumer.Err Consumer.Response)) : Prop :=
  match a.says with
  | .yes => ∃ s2 m signed, r = .ok (s2, .ok (.success (toldOf a.e a.anonymous) m signed)) ∧
      Gives (versionOf a.e) a.tells (fun u d => getSignedNS m signed (.uri u) = .ok (some d)) ∧
      (a.anonymous = false → s2 = ⟨none, none⟩)
  | .chooses identity claimed => ∃ d m signed,
      r = .ok (⟨none, none⟩, .ok (.success { d with claimedId := some (chosen identity claimed) } m signed)) ∧
      d.serverUrl = a.e.serverUrl ∧ Agrees W [t!"http://specs.openid.net/auth/2.0/signon"] d (chosen identity claimed) identity ∧
      Gives (versionOf a.e) a.tells (fun u d => getSignedNS m signed (.uri u) = .ok (some d))
  | .no => ∃ s2, s2.token = none ∧ if a.immediate then ∃ setup, r = .ok (s2, .ok (.setupNeeded (some a.e) (some setup)))
      else r = .ok (s2, .ok (.cancel (some a.e)))

/-- A login as it should be, however far it is: no step has failed; the provider found in the request what the relying party
    attached, and a browser can bring its answer back; and a login that is over ended as the user said. -/
def GoesWell (W : Consumer.World) (a : Attempt) : Phase → Prop
  | .waiting | .away _ _ => True
  | .back _ r w => Gives (versionOf a.e) a.asks (fun u d => r.message.getArgs (.uri u) = .ok d) ∧ ∃ q, Brings w q
  | .over r => EndsWell W a r
  | .failed => False

end Spec
