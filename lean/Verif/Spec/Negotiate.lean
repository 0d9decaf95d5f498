import Verif.Spec.ConsumerAssociate
import Verif.Spec.ServerAssociate
/-! # How a consumer comes by the association for a request -/

namespace Spec
open Py Message Association Cryptutil Store Discover Consumer

/-- The reply says that the types asked for are not supported, and which would be: an error (HTTP status 400) in OpenID 2
    and key-value form, with `error_code` and both types, that can be read as a message. -/
def Suggests (W : World) (o : Except PyErr Http) (assocType sessionType : Str) : Prop :=
  ∃ r text d m, o = .ok r ∧ r.status = 400 ∧ Utf8.decode r.body = .ok text ∧ KVForm.kvToDict text = .ok d ∧
    fromOpenIDArgs W.reg d = .ok m ∧ d.get? t!"ns" = some t!"http://specs.openid.net/auth/2.0" ∧
    d.get? t!"error_code" = some t!"unsupported-type" ∧ d.get? t!"assoc_type" = some assocType ∧
    d.get? t!"session_type" = some sessionType

/-- The requests made for an association, with the replies, and the pair of types, the body and the reply of the last one: the
    first is for the first pair of the negotiator; if its reply suggests a pair that is permitted, there is a second one,
    for that pair, and never a third. -/
inductive Asked (W : World) (C : Conf) (e : Endpoint) : List Ev → Str × Str → Str → Except PyErr Http → Prop where
  | once (body : Str) (o : Except PyErr Http) (p : Str × Str) (first : C.negotiator.head? = some p)
      (asks : AsksFor W e body p.1 p.2) (no : ∀ a s, Suggests W o a s → ¬ Permits C.negotiator a s) :
      Asked W C e [.post e.serverUrl body o] p body o
  | twice (body : Str) (o : Except PyErr Http) (p : Str × Str) (first : C.negotiator.head? = some p)
      (asks : AsksFor W e body p.1 p.2) (q : Str × Str) (says : Suggests W o q.1 q.2) (may : Permits C.negotiator q.1 q.2)
      (body2 : Str) (o2 : Except PyErr Http) (asks2 : AsksFor W e body2 q.1 q.2) :
      Asked W C e [.post e.serverUrl body o, .post e.serverUrl body2 o2] q body2 o2

/-- The reply grants the association `a` in a way that leaves no doubt: it can be read as a message; it names the session type
    that was asked for or, in OpenID 1, says no word of encryption; and what goes with that type is there and in order.
    (An OpenID 1 reply that declares the second namespace is not covered.) -/
def Grants (W : World) (E : Env) (sessionType body : Str) (o : Except PyErr Http) (a : Assoc) : Prop :=
  ∃ r text d m expires used, o = .ok r ∧ (r.status = 200 ∨ r.status = 206) ∧ Utf8.decode r.body = .ok text ∧
    KVForm.kvToDict text = .ok d ∧ fromOpenIDArgs W.reg d = .ok m ∧ d.get? t!"assoc_handle" = some a.handle ∧
    d.get? t!"assoc_type" = some a.assocType ∧ d.get? t!"expires_in" = some expires ∧
    parseInt W.digits expires = .ok a.lifetime ∧ a.issued = E.seconds W ∧
    ((d.get? t!"ns" = some t!"http://specs.openid.net/auth/2.0" ∨ d.get? t!"ns" = none ∨
        d.get? t!"ns" = some t!"http://openid.net/signon/1.0") ∧ used = sessionType ∧ d.get? t!"session_type" = some used ∨
     (d.get? t!"ns" = none ∨ d.get? t!"ns" = some t!"http://openid.net/signon/1.0") ∧ used = t!"no-encryption" ∧
       (d.get? t!"session_type" = none ∨ d.get? t!"session_type" = some [] ∨ d.get? t!"session_type" = some used)) ∧
    a.assocType ∈ assocTypesOf used ∧
    (used = t!"no-encryption" → ∃ key, d.get? t!"mac_key" = some key ∧ fromBase64 key = .ok a.secret) ∧
    (used ≠ t!"no-encryption" → ∃ pub enc, d.get? t!"dh_server_public" = some pub ∧ d.get? t!"enc_mac_key" = some enc ∧
      ∀ dh, Keyed W body dh →
        dh.xorSecret W.lib pub enc (if used = t!"DH-SHA256" then W.sha256 else W.sha1) = .ok (toBase64 a.secret))

/-- an association that has time left -/
def Lasting (W : World) (E : Env) (a : Assoc) : Prop := E.seconds W < a.issued + a.lifetime

/-- What is done for the association of a request, and which one it is: the store is asked; what it has is taken if it has
    time left; otherwise one is asked for, and what the last reply grants is stored and taken; there is none only if it
    grants none. -/
inductive Obtains (W : World) (C : Conf) (E : Env) (e : Endpoint) : List Ev → Option Assoc → Prop where
  | none (h : C.hasStore = false) : Obtains W C E e [] none
  | stored (h : C.hasStore = true) (a : Assoc) (ht : Lasting W E a) :
      Obtains W C E e [.store (.getAssociation e.serverUrl none) (.ok (.assoc (some a)))] (some a)
  | refused (h : C.hasStore = true) (x : Option Assoc) (ht : ∀ a, x = some a → ¬ Lasting W E a) (posts : List Ev)
      (p : Str × Str) (body : Str) (o : Except PyErr Http) (hp : Asked W C e posts p body o)
      (hg : ∀ a, ¬ Grants W E p.2 body o a) :
      Obtains W C E e (.store (.getAssociation e.serverUrl none) (.ok (.assoc x)) :: posts) none
  | granted (h : C.hasStore = true) (x : Option Assoc) (ht : ∀ a, x = some a → ¬ Lasting W E a) (posts : List Ev)
      (p : Str × Str) (body : Str) (o : Except PyErr Http) (hp : Asked W C e posts p body o) (a : Assoc)
      (hg : Granted W E p.2 body o a) (answer : Answer) :
      Obtains W C E e (.store (.getAssociation e.serverUrl none) (.ok (.assoc x)) :: posts ++
        [.store (.storeAssociation e.serverUrl a) (.ok answer)]) (some a)

end Spec
