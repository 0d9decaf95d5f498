import Verif.Model.Consumer
import Verif.Model.TrustRoot
/-! # Model of openid/extensions/ax.py

Texts only: values that `force_text` converts, and byte strings, which are converted with a warning, are not modelled.
Where a method raises, what it left in the object is not modelled.  `succeeded`, `wantsUnlimitedValues`, `__iter__` and
`has_key` are the fields of the model. -/

namespace Ax
open Py Message Association

/-- openid/extensions/ax.py:31-39 `checkAlias` -/
def checkAlias (a : Str) : Except PyErr Unit :=
  if ',' ∈ a then .error .axError else if '.' ∈ a then .error .axError else .ok ()

/-- openid/extensions/ax.py:69 `ns_uri` -/
def nsUri : Str := t!"http://openid.net/srv/ax/1.0"
/-- openid/extensions/ax.py:67 `ns_alias` -/
def nsAlias : Str := t!"ax"

/-- openid/extensions/ax.py:71-85 `_checkMode` -/
def checkMode (mode : Str) (args : Dict Str Str) : Except PyErr Unit :=
  if args.get? t!"mode" = some mode then .ok ()
  else if args.get? t!"mode" = none ∨ args.get? t!"mode" = some [] then .error .notAXMessage
  else .error .axError

/-- openid/extensions/ax.py:24, 106-108: a number, or `UNLIMITED_VALUES` -/
inductive Count where
  | num (n : Int)
  | unlimited
  deriving DecidableEq, Repr

/-- openid/extensions/ax.py:254 `six.text_type(attribute.count)` -/
def Count.text : Count → Str
  | .num n => intToStr n
  | .unlimited => t!"unlimited"

/-- openid/extensions/ax.py:95-131 `AttrInfo` -/
structure AttrInfo where
  typeUri : Str
  count : Count := .num 1
  required : Bool := false
  alias : Option Str := none
  deriving DecidableEq, Repr

/-- openid/extensions/ax.py:124-131 `__init__` -/
def AttrInfo.new (typeUri : Str) (count : Count) (required : Bool) (alias : Option Str) : Except PyErr AttrInfo := do
  match alias with
  | some a => checkAlias a
  | none => pure ()
  return ⟨typeUri, count, required, alias⟩

/-- openid/extensions/ax.py:168-174: the loop -/
def typesOf (m : NamespaceMap) : List Str → Except PyErr (List Str)
  | [] => .ok []
  | a :: rest =>
    match m.getNamespaceURI (.name a) with
    | none => .error .keyError
    | some u => do return u :: (← typesOf m rest)

/-- openid/extensions/ax.py:144-176 `toTypeURIs` -/
def toTypeURIs (m : NamespaceMap) : Option Str → Except PyErr (List Str)
  | some (c :: cs) => typesOf m (splitOn ',' (c :: cs))
  | _ => .ok []

/-- openid/extensions/ax.py:179-197 `FetchRequest` -/
structure FetchRequest where
  requested : Dict Str AttrInfo := []
  updateUrl : Option Str := none
  deriving DecidableEq, Repr

/-- openid/extensions/ax.py:199-214 `add` -/
def FetchRequest.add (r : FetchRequest) (i : AttrInfo) : Except PyErr FetchRequest :=
  if r.requested.has i.typeUri then .error .keyError
  else .ok { r with requested := r.requested.set i.typeUri i }

/-- openid/extensions/ax.py:230-246 and 638-641: the alias that is asked for, or a new one -/
def pickAlias (m : NamespaceMap) (uri : Str) (alias : Option Str) : Except PyErr NamespaceMap :=
  match alias with
  | none => m.add uri
  | some a => m.addAlias uri (.name a)

/-- openid/message.py:641, 646 and 662: the alias that `addAlias` and `add` return; it has to be a text to be used in a
    key -/
def nameOf (m : NamespaceMap) (uri : Str) : Except PyErr Str :=
  match m.getAlias uri with
  | some (.name a) => .ok a
  | _ => .error .typeError

/-- openid/extensions/ax.py:229-246: the attributes with their aliases -/
def named (m : NamespaceMap) : List (Str × AttrInfo) → Except PyErr (List (Str × Str × AttrInfo))
  | [] => .ok []
  | (uri, i) :: rest => do
    let m ← pickAlias m uri i.alias
    let a ← nameOf m uri
    let l ← named m rest
    return (a, uri, i) :: l

/-- openid/extensions/ax.py:253-256: what is assigned for one attribute -/
def attrArgs (x : Str × Str × AttrInfo) : List (Str × Str) :=
  (if x.2.2.count = .num 1 then [] else [(t!"count." ++ x.1, x.2.2.count.text)]) ++ [(t!"type." ++ x.1, x.2.1)]

/-- openid/extensions/ax.py:258-262: one of the two lists of aliases -/
def listArgs (key : Str) (l : List Str) : List (Str × Str) := if l.isEmpty then [] else [(key, join t!"," l)]

/-- openid/extensions/ax.py:216-264 `getExtensionArgs`: the assignments to the dictionary, in their order -/
def FetchRequest.getExtensionArgs (r : FetchRequest) : Except PyErr (Dict Str Str) := do
  let l ← named {} r.requested
  return Dict.ofPairs ([(t!"mode", t!"fetch_request")] ++ l.flatMap attrArgs ++
    listArgs t!"required" ((l.filter (·.2.2.required)).map (·.1)) ++
    listArgs t!"if_available" ((l.filter (!·.2.2.required)).map (·.1)))

/-- openid/extensions/ax.py:266-280 `getRequiredAttrs` -/
def FetchRequest.getRequiredAttrs (r : FetchRequest) : List Str := (r.requested.filter (·.2.required)).map (·.1)

/-- openid/extensions/ax.py:354-365: the count; the `AXError` of line 359 is a `ValueError` and is caught in line 360,
    which raises another -/
def parseCount (X : ExtraDigits) (o : Option Str) : Except PyErr Count :=
  match o with
  | some (c :: cs) =>
    match parseInt X (c :: cs) with
    | .ok n => if n ≤ 0 then .error .axError else .ok (.num n)
    | .error _ => if (c :: cs) = t!"unlimited" then .ok .unlimited else .error .axError
  | _ => .ok (.num 1)

/-- openid/extensions/ax.py:347-367: one argument -/
def FetchRequest.parseType (X : ExtraDigits) (args : Dict Str Str) (s : NamespaceMap × FetchRequest) (kv : Str × Str) :
    Except PyErr (NamespaceMap × FetchRequest) :=
  if startsWith kv.1 t!"type." then do
    let m ← s.1.addAlias kv.2 (.name (kv.1.drop 5))
    let count ← parseCount X (args.get? (t!"count." ++ kv.1.drop 5))
    let i ← AttrInfo.new kv.2 count false (some (kv.1.drop 5))
    let r ← s.2.add i
    return (m, r)
  else .ok s

/-- openid/extensions/ax.py:371-372: a type that is required -/
def FetchRequest.setRequired (r : FetchRequest) (uri : Str) : Except PyErr FetchRequest :=
  match r.requested.get? uri with
  | none => .error .keyError
  | some i => .ok { r with requested := r.requested.set uri { i with required := true } }

/-- openid/extensions/ax.py:324-384 `parseExtensionArgs` -/
def FetchRequest.parseExtensionArgs (X : ExtraDigits) (r : FetchRequest) (args : Dict Str Str) :
    Except PyErr FetchRequest := do
  checkMode t!"fetch_request" args
  let (m, r) ← args.foldlM (FetchRequest.parseType X args) ({}, r)
  let required ← toTypeURIs m (args.get? t!"required")
  let r ← required.foldlM FetchRequest.setRequired r
  let ifAvailable ← toTypeURIs m (args.get? t!"if_available")
  if m.nsToAlias.keys.all ((required ++ ifAvailable).contains ·) then
    return { r with updateUrl := args.get? t!"update_url" }
  else throw .axError

/-- openid/extensions/ax.py:303-306, 703-708, 755-760: no message without a mode -/
def unlessNot (x : Except PyErr α) : Except PyErr (Option α) :=
  match x with
  | .ok a => .ok (some a)
  | .error e => if e = .notAXMessage then .ok none else .error e

/-- openid/extensions/ax.py:308-320: the update URL against the realm -/
def checkUpdate (U : Url.Uni) (m : Msg) (r : FetchRequest) : Except PyErr Unit :=
  match r.updateUrl with
  | some (c :: cs) => do
    let returnTo ← m.getArg .openid t!"return_to"
    let given ← m.getArg .openid t!"realm"
    match given.or returnTo with
    | some (d :: ds) =>
      match TrustRoot.parse U (d :: ds) with
      | .error e => throw e
      | .ok none => throw .attributeError
      | .ok (some tr) =>
        let b ← TrustRoot.validateURL U tr (c :: cs)
        if b then return () else throw .axError
    | _ => throw .axError
  | _ => .ok ()

/-- openid/extensions/ax.py:282-322 `FetchRequest.fromOpenIDRequest`, with the message of the request -/
def FetchRequest.fromOpenIDRequest (U : Url.Uni) (X : ExtraDigits) (m : Msg) : Except PyErr (Option FetchRequest) := do
  let args ← m.getArgs (.uri nsUri)
  match ← unlessNot (FetchRequest.parseExtensionArgs X {} args) with
  | none => return none
  | some r =>
    checkUpdate U m r
    return some r

/-- openid/extensions/ax.py:411-413: the values of attributes -/
abbrev Data := Dict Str (List Str)

/-- openid/extensions/ax.py:415-434 `addValue` -/
def addValue (d : Data) (uri value : Str) : Data :=
  match d.get? uri with
  | some vs => d.set uri (vs ++ [value])
  | none => d.set uri [value]

/-- openid/extensions/ax.py:436-446 `setValues` -/
def setValues (d : Data) (uri : Str) (values : List Str) : Data := d.set uri values

/-- openid/extensions/ax.py:467 the key of a value, which is counted from one -/
def valueKey (a : Str) (i : Nat) : Str := t!"value." ++ a ++ t!"." ++ natToStr i

/-- openid/extensions/ax.py:466-468: the values of an attribute, from the `i`th -/
def valueArgs (a : Str) (i : Nat) : List Str → List (Str × Str)
  | [] => []
  | v :: vs => (valueKey a i, v) :: valueArgs a (i + 1) vs

/-- openid/extensions/ax.py:463-468: what is assigned for one attribute -/
def kvArgs (x : Str × Str × List Str) : List (Str × Str) :=
  [(t!"type." ++ x.1, x.2.1), (t!"count." ++ x.1, natToStr x.2.2.length)] ++ valueArgs x.1 1 x.2.2

/-- openid/extensions/ax.py:460-461: the attributes with their aliases -/
def kvNamed (m : NamespaceMap) : List (Str × List Str) → Except PyErr (List (Str × Str × List Str))
  | [] => .ok []
  | (uri, vs) :: rest => do
    let m ← m.add uri
    let a ← nameOf m uri
    let l ← kvNamed m rest
    return (a, uri, vs) :: l

/-- openid/extensions/ax.py:448-470 `_getExtensionKVArgs`: the assignments; the aliases added to the map are not modelled -/
def getExtensionKVArgs (m : NamespaceMap) (d : Data) : Except PyErr (List (Str × Str)) := do
  let l ← kvNamed m d
  return l.flatMap kvArgs

/-- openid/extensions/ax.py:492-497: one argument -/
def kvType (m : NamespaceMap) (kv : Str × Str) : Except PyErr NamespaceMap :=
  if startsWith kv.1 t!"type." then do
    checkAlias (kv.1.drop 5)
    m.addAlias kv.2 (.name (kv.1.drop 5))
  else .ok m

/-- openid/extensions/ax.py:512-515: so many values from the `i`th -/
def valuesFrom (args : Dict Str Str) (a : Str) (i : Nat) : Nat → Except PyErr (List Str)
  | 0 => .ok []
  | n + 1 =>
    match args.get? (valueKey a i) with
    | none => .error .keyError
    | some v => do return v :: (← valuesFrom args a (i + 1) n)

/-- openid/extensions/ax.py:500-515: the values of an attribute -/
def kvValues (X : ExtraDigits) (args : Dict Str Str) (a : Str) : Except PyErr (List Str) :=
  match args.get? (t!"count." ++ a) with
  | none =>
    match args.get? (t!"value." ++ a) with
    | none => .error .keyError
    | some v => .ok (if v = [] then [] else [v])
  | some s => do
    let n ← parseInt X s
    valuesFrom args a 1 n.toNat

/-- openid/extensions/ax.py:499-517: one attribute -/
def kvTake (X : ExtraDigits) (args : Dict Str Str) (d : Data) (x : Str × Alias) : Except PyErr Data :=
  match x.2 with
  | .null => .error .typeError
  | .name a => do return d.set x.1 (← kvValues X args a)

/-- openid/extensions/ax.py:472-517 `AXKeyValueMessage.parseExtensionArgs` -/
def kvParse (X : ExtraDigits) (mode : Str) (d : Data) (args : Dict Str Str) : Except PyErr Data := do
  checkMode mode args
  let m ← args.foldlM kvType {}
  m.nsToAlias.foldlM (kvTake X args) d

/-- openid/extensions/ax.py:519-546 `getSingle`; `none` stands for the default -/
def getSingle (d : Data) (uri : Str) : Except PyErr (Option Str) :=
  match d.get? uri with
  | none => .ok none
  | some [] => .ok none
  | some [v] => .ok (some v)
  | some _ => .error .axError

/-- openid/extensions/ax.py:548-566 `get` -/
def getValues (d : Data) (uri : Str) : Except PyErr (List Str) :=
  match d.get? uri with
  | some vs => .ok vs
  | none => .error .keyError

/-- openid/extensions/ax.py:568-580 `count` -/
def countOf (d : Data) (uri : Str) : Except PyErr Nat := do return (← getValues d uri).length

/-- openid/extensions/ax.py:583-608 `FetchResponse` -/
structure FetchResponse where
  data : Data := []
  request : Option FetchRequest := none
  updateUrl : Option Str := none
  deriving DecidableEq, Repr

/-- openid/extensions/ax.py:649: more values than were asked for -/
def tooMany (c : Count) (n : Nat) : Bool :=
  match c with
  | .unlimited => false
  | .num k => k < (n : Int)

/-- openid/extensions/ax.py:635-652: the attributes that were asked for -/
def checkAttrs (d : Data) (m : NamespaceMap) : List AttrInfo → Except PyErr NamespaceMap
  | [] => .ok m
  | i :: rest => do
    let m ← pickAlias m i.typeUri i.alias
    if tooMany i.count ((d.get? i.typeUri).getD []).length then throw .axError
    checkAttrs d m rest

/-- openid/extensions/ax.py:619-652: the data against the request; the aliases and the attributes without values -/
def FetchResponse.check (r : FetchResponse) : Except PyErr (NamespaceMap × List AttrInfo) :=
  match r.request with
  | none => .ok ({}, [])
  | some q =>
    if r.data.keys.all (q.requested.has ·) then do
      let m ← checkAttrs r.data {} (q.requested.map (·.2))
      return (m, (q.requested.map (·.2)).filter (fun i => !r.data.has i.typeUri))
    else .error .keyError

/-- openid/extensions/ax.py:662-665: the attributes without values -/
def zeroArgs (m : NamespaceMap) : List AttrInfo → Except PyErr (List (Str × Str))
  | [] => .ok []
  | i :: rest => do
    let a ← nameOf m i.typeUri
    let l ← zeroArgs m rest
    return [(t!"type." ++ a, i.typeUri), (t!"count." ++ a, t!"0")] ++ l

/-- openid/extensions/ax.py:667 the update URL; a request is true -/
def FetchResponse.sentUpdate (r : FetchResponse) : Option Str :=
  match r.request with
  | some ⟨_, some (c :: cs)⟩ => some (c :: cs)
  | _ => r.updateUrl

/-- openid/extensions/ax.py:669-670 -/
def updateArgs (u : Option Str) : List (Str × Str) :=
  match u with
  | some (c :: cs) => [(t!"update_url", c :: cs)]
  | _ => []

/-- openid/extensions/ax.py:610-674 `FetchResponse.getExtensionArgs` -/
def FetchResponse.getExtensionArgs (r : FetchResponse) : Except PyErr (Dict Str Str) := do
  let (m, zero) ← r.check
  let l ← kvNamed m r.data
  let z ← zeroArgs m zero
  return Dict.update ([(t!"mode", t!"fetch_response")] ++ updateArgs r.sentUpdate)
    (Dict.ofPairs (l.flatMap kvArgs ++ z))

/-- openid/extensions/ax.py:676-679 `FetchResponse.parseExtensionArgs` -/
def FetchResponse.parseExtensionArgs (X : ExtraDigits) (r : FetchResponse) (args : Dict Str Str) :
    Except PyErr FetchResponse := do
  let d ← kvParse X t!"fetch_response" r.data args
  return { r with data := d, updateUrl := args.get? t!"update_url" }

/-- openid/extensions/ax.py:681-708 `FetchResponse.fromSuccessResponse`, with the message and its signed fields; `None` has
    no `get` -/
def FetchResponse.fromSuccessResponse (X : ExtraDigits) (m : Msg) (signedFields : List Str) (signed : Bool) :
    Except PyErr (Option FetchResponse) := do
  match ← Consumer.extensionResponse m signedFields (.uri nsUri) signed with
  | none => throw .attributeError
  | some args => unlessNot (FetchResponse.parseExtensionArgs X {} args)

/-- openid/extensions/ax.py:724-731 `getExtensionArgs`, with the aliases that the request was made with -/
def storeArgs (aliases : Option NamespaceMap) (d : Data) : Except PyErr (Dict Str Str) := do
  let l ← getExtensionKVArgs (aliases.getD {}) d
  return Dict.update [(t!"mode", t!"store_request")] (Dict.ofPairs l)

/-- openid/extensions/ax.py:733-760 `StoreRequest.fromOpenIDRequest`, with the message of the request -/
def storeFromOpenIDRequest (X : ExtraDigits) (m : Msg) : Except PyErr (Option Data) := do
  let args ← m.getArgs (.uri nsUri)
  unlessNot (kvParse X t!"store_request" [] args)

/-- openid/extensions/ax.py:763-781 `StoreResponse` -/
structure StoreResponse where
  mode : Str
  errorMessage : Option Str
  deriving DecidableEq, Repr

/-- openid/extensions/ax.py:771-781 `__init__` -/
def StoreResponse.new (succeeded : Bool) (errorMessage : Option Str) : Except PyErr StoreResponse :=
  if succeeded && errorMessage.isSome then .error .axError
  else .ok ⟨if succeeded then t!"store_response_success" else t!"store_response_failure", errorMessage⟩

/-- openid/extensions/ax.py:783-785 `succeeded` -/
def StoreResponse.succeeded (r : StoreResponse) : Bool := r.mode = t!"store_response_success"

/-- openid/extensions/ax.py:787-793 `getExtensionArgs` -/
def StoreResponse.getExtensionArgs (r : StoreResponse) : Dict Str Str :=
  [(t!"mode", r.mode)] ++
  match r.errorMessage with
  | some (c :: cs) => if r.succeeded then [] else [(t!"error", c :: cs)]
  | _ => []

/-- openid/extensions/ax.py:795-822 `StoreResponse.fromSuccessResponse`: the class has no `parseExtensionArgs` (nor has
    `AXMessage` or `Extension`, openid/extension.py:8-46), so that its use raises `AttributeError` -/
def StoreResponse.fromSuccessResponse (m : Msg) (signedFields : List Str) (signed : Bool) :
    Except PyErr (Option StoreResponse) := do
  let _ ← Consumer.extensionResponse m signedFields (.uri nsUri) signed
  throw .attributeError

end Ax
