import Verif.Model.Consumer
/-! # Model of openid/extensions/sreg.py

Texts only: byte strings, which are converted with a warning, and the `TypeError` for one text in place of a list are not
modelled.  The read-only views of `SRegResponse` (lines 494-509, 515, 522-526) are those of its dictionary. -/

namespace Sreg
open Py Message Discover

/-- openid/extensions/sreg.py:60-70 `data_fields`, the names -/
def dataFields : List Str :=
  [t!"fullname", t!"nickname", t!"dob", t!"email", t!"gender", t!"postcode", t!"country", t!"language", t!"timezone"]

/-- openid/extensions/sreg.py:73-82 `checkFieldName` -/
def checkFieldName (f : Str) : Except PyErr Unit := if dataFields.contains f then .ok () else .error .valueError

/-- openid/extensions/sreg.py:87 `ns_uri_1_0` -/
def nsUri10 : Str := t!"http://openid.net/sreg/1.0"
/-- openid/extensions/sreg.py:91 `ns_uri_1_1` -/
def nsUri11 : Str := t!"http://openid.net/extensions/sreg/1.1"

/-- openid/extensions/sreg.py:103-113 `supportsSReg` -/
def supportsSReg (e : Endpoint) : Bool := e.usesExtension nsUri11 || e.usesExtension nsUri10

/-- openid/extensions/sreg.py:157-165: add the alias; another extension may have it -/
def declareSReg (m : Msg) : Except PyErr Msg :=
  match m.namespaces.addAlias nsUri11 (.name t!"sreg") with
  | .ok n => .ok { m with namespaces := n }
  | .error e => if e.isKeyError then .error .valueError else .error e

/-- openid/extensions/sreg.py:131-167 `getSRegNS`, with the message as it is afterwards -/
def getSRegNS (m : Msg) : Except PyErr (Msg × Str) :=
  if (m.namespaces.getAlias nsUri11).isSome then .ok (m, nsUri11)
  else if (m.namespaces.getAlias nsUri10).isSome then .ok (m, nsUri10)
  else do
    let m ← declareSReg m
    return (m, nsUri11)

/-- openid/extensions/sreg.py:170-203 `SRegRequest`; new by default -/
structure Request where
  required : List Str := []
  optional : List Str := []
  policyUrl : Option Str := none
  nsUri : Str := nsUri11
  deriving DecidableEq, Repr

/-- openid/extensions/sreg.py:331-334 -/
def Request.append (r : Request) (f : Str) (required : Bool) : Request :=
  if required then { r with required := r.required ++ [f] } else { r with optional := r.optional ++ [f] }

/-- openid/extensions/sreg.py:298-334 `requestField` -/
def Request.requestField (r : Request) (f : Str) (required strict : Bool) : Except PyErr Request := do
  checkFieldName f
  if strict then
    if r.required.contains f || r.optional.contains f then throw .valueError
    else return r.append f required
  else if r.required.contains f then return r
  else if r.optional.contains f then
    if required then return { r with optional := r.optional.erase f }.append f required else return r
  else return r.append f required

/-- openid/extensions/sreg.py:336-359 `requestFields`: the request afterwards and what was raised -/
def Request.requestFields (r : Request) (fs : List Str) (required strict : Bool) : Request × Option PyErr :=
  match fs with
  | [] => (r, none)
  | f :: rest =>
    match r.requestField f required strict with
    | .ok r' => r'.requestFields rest required strict
    | .error e => (r, some e)

/-- openid/extensions/sreg.py:190-203 `__init__`, where the lists may be `None` or empty -/
def Request.new (required optional : List Str) (policyUrl : Option Str) (nsUri : Str) : Except PyErr Request :=
  match Request.requestFields { policyUrl := policyUrl, nsUri := nsUri } required true true with
  | (_, some e) => .error e
  | (r, none) =>
    match r.requestFields optional false true with
    | (_, some e) => .error e
    | (r, none) => .ok r

/-- openid/extensions/sreg.py:266-271: names that are refused are skipped unless strict -/
def Request.parseNames (r : Request) (fs : List Str) (required strict : Bool) : Request × Option PyErr :=
  match fs with
  | [] => (r, none)
  | f :: rest =>
    match r.requestField f required strict with
    | .ok r' => r'.parseNames rest required strict
    | .error e => if strict || !e.isValueError then (r, some e) else r.parseNames rest required strict

/-- openid/extensions/sreg.py:261-271: one round -/
def Request.parseList (r : Request) (items : Option Str) (required strict : Bool) : Request × Option PyErr :=
  match items with
  | some (c :: cs) => r.parseNames (splitOn ',' (c :: cs)) required strict
  | _ => (r, none)

/-- openid/extensions/sreg.py:233-277 `parseExtensionArgs`: the request afterwards and what was raised -/
def Request.parseExtensionArgs (r : Request) (args : Dict Str Str) (strict : Bool) : Request × Option PyErr :=
  match r.parseList (args.get? t!"required") true strict with
  | (r, some e) => (r, some e)
  | (r, none) =>
    match r.parseList (args.get? t!"optional") false strict with
    | (r, some e) => (r, some e)
    | (r, none) => ({ r with policyUrl := args.get? t!"policy_url" }, none)

/-- openid/extensions/sreg.py:279-285 `allRequestedFields` -/
def Request.allRequestedFields (r : Request) : List Str := r.required ++ r.optional

/-- openid/extensions/sreg.py:287-292 `wereFieldsRequested` -/
def Request.wereFieldsRequested (r : Request) : Bool := !r.allRequestedFields.isEmpty

/-- openid/extensions/sreg.py:294-296 `__contains__` -/
def Request.contains (r : Request) (f : Str) : Bool := r.required.contains f || r.optional.contains f

/-- openid/extensions/sreg.py:361-382 `getExtensionArgs` -/
def Request.getExtensionArgs (r : Request) : Dict Str Str :=
  (if r.required.isEmpty then [] else [(t!"required", join t!"," r.required)]) ++
  (if r.optional.isEmpty then [] else [(t!"optional", join t!"," r.optional)]) ++
  match r.policyUrl with
  | some (c :: cs) => [(t!"policy_url", c :: cs)]
  | _ => []

/-- openid/extensions/sreg.py:209-231 `fromOpenIDRequest`; the message is copied, so the caller's does not change -/
def fromOpenIDRequest (m : Msg) : Except PyErr Request := do
  let (m, ns) ← getSRegNS m
  let args ← m.getArgs (.uri ns)
  match Request.parseExtensionArgs { nsUri := ns } args false with
  | (r, none) => return r
  | (_, some e) => throw e

/-- openid/extensions/sreg.py:385-414 `SRegResponse` -/
structure Response where
  data : Dict Str Str := []
  nsUri : Str := nsUri11
  deriving DecidableEq, Repr

/-- openid/extensions/sreg.py:435-438: one round, for a field that was asked for -/
def takeValue (data : Dict Str (Option Str)) (d : Dict Str Str) (f : Str) : Dict Str Str :=
  match data.get? f with
  | some (some v) => d.set f v
  | _ => d

/-- openid/extensions/sreg.py:416-439 `extractResponse`; the values of `data` are `None` or as `force_text` gives them -/
def extractResponse (r : Request) (data : Dict Str (Option Str)) : Response :=
  { nsUri := r.nsUri
    data := r.allRequestedFields.foldl (takeValue data) [] }

/-- openid/extensions/sreg.py:473-475: one round, for a known field -/
def takeField (args d : Dict Str Str) (f : Str) : Dict Str Str :=
  match args.get? f with
  | some v => d.set f v
  | none => d

/-- openid/extensions/sreg.py:473-475: the values of the known fields -/
def pickFields (args : Dict Str Str) : Dict Str Str := dataFields.foldl (takeField args) []

/-- openid/extensions/sreg.py:470-477 -/
def responseOf (ns : Str) (args : Option (Dict Str Str)) : Option Response :=
  match args with
  | some (p :: ps) => some { nsUri := ns, data := pickFields (p :: ps) }
  | _ => none

/-- openid/extensions/sreg.py:445-477 `fromSuccessResponse` of a response with this message and these signed fields; also
    the message as it is afterwards -/
def fromSuccessResponse (m : Msg) (signedFields : List Str) (signedOnly : Bool) : Except PyErr (Msg × Option Response) := do
  let (m, ns) ← getSRegNS m
  let args ← Consumer.extensionResponse m signedFields (.uri ns) signedOnly
  return (m, responseOf ns args)

/-- openid/extensions/sreg.py:479-485 `getExtensionArgs` -/
def Response.getExtensionArgs (r : Response) : Dict Str Str := r.data

/-- openid/extensions/sreg.py:487-492 `get`; `none` stands for the default -/
def Response.get (r : Response) (f : Str) : Except PyErr (Option Str) := do
  checkFieldName f
  return r.data.get? f

/-- openid/extensions/sreg.py:511-513 `__contains__` -/
def Response.contains (r : Response) (f : Str) : Except PyErr Bool := do
  checkFieldName f
  return r.data.has f

/-- openid/extensions/sreg.py:518-520 `__getitem__` -/
def Response.getItem (r : Response) (f : Str) : Except PyErr Str := do
  checkFieldName f
  match r.data.get? f with
  | some v => return v
  | none => throw .keyError

end Sreg
