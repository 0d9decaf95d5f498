import Verif.Model.Consumer
import Verif.Model.Server
/-! # openid/extension.py: extensions of requests and responses -/

namespace Extend
open Py Message

/-- openid/extension.py:7-26 `Extension`: `ns_uri`, `ns_alias` and what `getExtensionArgs` gives -/
structure Extension where
  uri : Str
  alias : Str
  args : Dict Str Str
  deriving DecidableEq, Repr

/-- openid/extension.py:28-51 `Extension.toMessage` with a message.  What is left of the message after an exception is not
    modelled. -/
def Extension.toMessage (x : Extension) (m : Msg) : Except PyErr Msg := m.addExtension x.uri x.alias x.args

/-- openid/consumer/consumer.py:1471-1478 `AuthRequest.addExtension`, once for each extension -/
def extendRequest (r : Consumer.AuthRequest) : List Extension → Except PyErr Consumer.AuthRequest
  | [] => .ok r
  | x :: rest => do
    let m ← x.toMessage r.message
    extendRequest { r with message := m } rest

/-- openid/server/server.py:1087-1098 `OpenIDResponse.addExtension`, once for each extension -/
def extendResponse (r : Server.Response) : List Extension → Except PyErr Server.Response
  | [] => .ok r
  | x :: rest => do
    let m ← x.toMessage r.fields
    extendResponse { r with fields := m } rest

end Extend
