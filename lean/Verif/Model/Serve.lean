import Verif.Model.Server
/-! # Model of an endpoint made with the server library

How the methods of `Server` are put together: examples/server.py:177-193 and 225-231, the program that comes with the
library.  Pages of that program itself (lines 182-186, 258 ff.) and its decision about a user (lines 213-223) are not
modelled. -/

namespace Server
open Py Message Association Store

/-- What a visitor of the endpoint gets. -/
inductive Page where
  /-- the page that says this is an endpoint (examples/server.py:185) -/
  | about
  /-- the request is for the application to decide on (examples/server.py:188) -/
  | ask (r : CheckIDRequest)
  /-- a response made by the library -/
  | web (w : WebResponse)
  /-- an EncodingError: the application shows it to the user (examples/server.py:228-230; the page, made
      from its text, is not modelled) -/
  | failed
  deriving DecidableEq, Repr

/-- examples/server.py:226-231 of `displayResponse`: `except EncodingError`, of which `AlreadySigned` is a subclass
    (openid/server/server.py:1809) -/
def display : Prog WebResponse → Prog Page
  | .done (.ok w) => .done (.ok (.web w))
  | .done (.error .encoding) => .done (.ok .failed)
  | .done (.error .alreadySigned) => .done (.ok .failed)
  | .done (.error e) => .done (.error e)
  | .call op k => .call op fun a => display (k a)

/-- openid/server/server.py:490-492: the text of the error for an association type that does not go with the session -/
def mismatchText (sessionType assocType : Str) : Str :=
  t!"Session type " ++ sessionType ++ t!" does not support association type " ++ assocType

/-- examples/server.py:177-193 `serverEndPoint` with `decodeRequest` (openid/server/server.py:1620-1637), `handleRequest`
    and `encodeResponse` (openid/server/server.py:1639-1651).  `text` is the text of each protocol error. -/
def serverEndPoint (W : World) (E : Env) (opEndpoint : Option Str) (negotiator : Negotiator)
    (text : Reason → Option Msg → Str) (query : Dict Str Str) : Prog Page :=
  match decode W E opEndpoint query with
  | .error (.protocol why m) => display (.done (encodeError ⟨m, text why m, none, none⟩))
  | .error e => .raise e
  | .ok none => pure .about
  | .ok (some (.checkId r)) => pure (.ask r)
  | .ok (some r) => do
    let resp ← handleRequest W E negotiator r
    display (signingEncode W E resp)

end Server
