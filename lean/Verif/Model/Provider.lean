import Verif.Model.Sreg
import Verif.Model.Extend
/-! # Model of the decisions of the provider in examples/server.py

Who is answered what, as far as that is up to the program that uses the library: examples/server.py:132-223 and the
assertion of `showDecidePage`, lines 338-339.  The visitor's name is the cookie `user` (lines 160-165), and the query is
given as text (under Python 3 the program gets bytes from a form and fails).  What `displayResponse` makes of a response is `Server.display` of `Model/Serve`; pages are
not modelled.  An exception is shown as a page (status 500) and leaves the changes made before it. -/

namespace Provider
open Py Message Server

/-- what the program keeps in memory: the decisions to remember (by identity and trust root) and, by visitor, the last
    request it has not answered (examples/server.py:56-57) -/
structure Site where
  approved : Dict (Option Str × Option Str) Unit
  last : Dict (Option Str) CheckIDRequest

/-- a visit: to the endpoint, or by the form that says yes or no -/
inductive Visit where
  | endpoint (query : Dict Str Str)
  | allow (query : Dict Str Str)
  deriving DecidableEq, Repr

/-- what the visitor gets: a page about the endpoint, an error of the protocol, what the library answers to requests that
    are not about a user, the page on which to decide about a request, or a response, with the visitor's name afterwards -/
inductive Shown where
  | about
  | protocol
  | library (r : Request)
  | decide (r : CheckIDRequest)
  | respond (resp : Response) (user : Option Str)
  deriving DecidableEq, Repr

/-- the address of a user: `base_url + 'id/' + name` -/
def idUrl (base name : Str) : Str := base ++ t!"id/" ++ name

/-- examples/server.py:167-175 `isAuthorized` -/
def isAuthorized (base : Str) (s : Site) (user identity trustRoot : Option Str) : Bool :=
  match user with
  | none => false
  | some name =>
    if identity ≠ some (idUrl base name) then false else (s.approved.get? (identity, trustRoot)).isSome

/-- examples/server.py:195-206 `addSRegResponse` -/
def addSRegResponse (r : CheckIDRequest) (user : Option Str) (resp : Response) : Except Err Response := do
  let req ← lift (Sreg.fromOpenIDRequest r.message)
  let x := Sreg.extractResponse req [(t!"nickname", user)]
  lift (Extend.extendResponse resp [⟨x.nsUri, t!"sreg", x.data⟩])

/-- examples/server.py:208-211 `approved` -/
def approve (W : World) (E : Env) (r : CheckIDRequest) (user identifier : Option Str) : Except Err Response := do
  let resp ← r.answer W E true none identifier none
  addSRegResponse r user resp

/-- examples/server.py:334-339: the page is made, unless the request is about somebody who is not here -/
def showDecidePage (base : Str) (r : CheckIDRequest) : Except Err Shown :=
  match r.identity with
  | none => .error (.py .attributeError)
  | some i => if (base ++ t!"id/").isPrefixOf i || r.idSelect then .ok (.decide r) else .error (.py .assertionError)

/-- examples/server.py:213-223 `handleCheckIDRequest` -/
def handleCheckIDRequest (W : World) (E : Env) (base : Str) (s : Site) (user : Option Str) (r : CheckIDRequest) :
    Except Err Shown × Site :=
  if isAuthorized base s user r.identity r.trustRoot then ((approve W E r user none).map (.respond · user), s)
  else if r.immediate then ((r.answer W E false none none none).map (.respond · user), s)
  else (showDecidePage base r, { s with last := s.last.set user r })

/-- examples/server.py:177-193 `serverEndPoint` -/
def serverEndPoint (W : World) (E : Env) (base : Str) (opEndpoint : Option Str) (s : Site) (user : Option Str)
    (query : Dict Str Str) : Except Err Shown × Site :=
  match decode W E opEndpoint query with
  | .error (.protocol _ _) => (.ok .protocol, s)
  | .error e => (.error e, s)
  | .ok none => (.ok .about, s)
  | .ok (some (.checkId r)) => handleCheckIDRequest W E base s user r
  | .ok (some r) => (.ok (.library r), s)

/-- examples/server.py:141-144: the identity to assert -/
def chosen (base : Str) (r : CheckIDRequest) (query : Dict Str Str) : Except Err (Option Str) :=
  if r.idSelect then match query.get? t!"identifier" with
    | some x => .ok (some (idUrl base x))
    | none => .error (.py .keyError)
  else .ok r.identity

/-- examples/server.py:137-150: yes to a request -/
def allowYes (W : World) (E : Env) (base : Str) (s : Site) (user : Option Str) (r : CheckIDRequest)
    (query : Dict Str Str) : Except Err Shown × Site :=
  let user := (query.get? t!"login_as").or user
  match chosen base r query with
  | .error e => (.error e, s)
  | .ok identity =>
    let s := if query.get? t!"remember" = some t!"yes" then
        { s with approved := s.approved.set (identity, r.trustRoot) () } else s
    ((approve W E r user identity).map (.respond · user), s)

/-- examples/server.py:132-158 `handleAllow` -/
def handleAllow (W : World) (E : Env) (base : Str) (s : Site) (user : Option Str) (query : Dict Str Str) :
    Except Err Shown × Site :=
  if query.has t!"yes" then match s.last.get? user with
    | none => (.error (.py .attributeError), s)
    | some r => allowYes W E base s user r query
  else if query.has t!"no" then match s.last.get? user with
    | none => (.error (.py .attributeError), s)
    | some r => ((r.answer W E false none none none).map (.respond · user), s)
  else (.error (.py .assertionError), s)

/-- examples/server.py:68-130: one visit -/
def visit (W : World) (E : Env) (base : Str) (opEndpoint : Option Str) (s : Site) (user : Option Str) :
    Visit → Except Err Shown × Site
  | .endpoint q => serverEndPoint W E base opEndpoint s user q
  | .allow q => handleAllow W E base s user q

end Provider
