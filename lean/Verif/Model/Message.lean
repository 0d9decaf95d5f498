import Verif.Model.KVForm
import Verif.Model.Oidutil
/-! # Model of openid/message.py

Text only: bytes inputs (deprecated) and lists as values (line 169) are not modelled.
`toFormMarkup` (lines 336-379, lxml) is in `Model/Form`; the deprecation warnings are not modelled.
The module-level dictionary `registered_aliases` (line 96) is an explicit argument `reg`.
A mutating method returns the new object; where it raises, the model returns only the exception
(every method below raises before it changes anything, except where noted). -/

namespace Message
open Py

/-- openid/message.py:22 -/
def IDENTIFIER_SELECT : Str := t!"http://specs.openid.net/auth/2.0/identifier_select"
/-- openid/message.py:26 -/
def SREG_URI : Str := t!"http://openid.net/sreg/1.0"
/-- openid/message.py:29 -/
def OPENID1_NS : Str := t!"http://openid.net/signon/1.0"
/-- openid/message.py:30 -/
def THE_OTHER_OPENID1_NS : Str := t!"http://openid.net/signon/1.1"
/-- openid/message.py:32 -/
def OPENID1_NAMESPACES : List Str := [OPENID1_NS, THE_OTHER_OPENID1_NS]
/-- openid/message.py:35 -/
def OPENID2_NS : Str := t!"http://specs.openid.net/auth/2.0"
/-- openid/message.py:50 -/
def OPENID1_URL_LIMIT : Nat := 2047

/-- openid/message.py:53-59 -/
def OPENID_PROTOCOL_FIELDS : List Str :=
  [t!"ns", t!"mode", t!"error", t!"return_to", t!"contact", t!"reference",
   t!"signed", t!"assoc_type", t!"session_type", t!"dh_modulus", t!"dh_gen",
   t!"dh_consumer_public", t!"claimed_id", t!"identity", t!"realm",
   t!"invalidate_handle", t!"op_endpoint", t!"response_nonce", t!"sig",
   t!"assoc_handle", t!"trust_root", t!"openid"]

/-- A namespace alias: `NULL_NAMESPACE` (line 39) or a text. -/
inductive Alias where
  | null
  | name (s : Str)
  deriving DecidableEq, Repr

/-- A namespace argument of the `Message` methods: `OPENID_NS` (line 42), `BARE_NS` (line 46), a text,
    or anything else (`None`, `NULL_NAMESPACE`), which is refused with TypeError. -/
inductive Ns where
  | openid
  | bare
  | uri (s : Str)
  | other
  deriving DecidableEq, Repr

/-- The namespace part of a key of `Message.args`. -/
inductive NsKey where
  | bare
  | uri (s : Str)
  deriving DecidableEq, Repr

/-- a fixed namespace used as a namespace argument again -/
def NsKey.toNs : NsKey → Ns
  | .bare => .bare
  | .uri s => .uri s

/-! ## NamespaceMap -/

/-- openid/message.py:565-572 `NamespaceMap` -/
structure NamespaceMap where
  aliasToNs : Dict Alias Str := []
  nsToAlias : Dict Str Alias := []
  implicit : List Str := []
  deriving DecidableEq, Repr

namespace NamespaceMap

/-- openid/message.py:574 `getAlias` -/
def getAlias (m : NamespaceMap) (uri : Str) : Option Alias := m.nsToAlias.get? uri

/-- openid/message.py:577 `getNamespaceURI` -/
def getNamespaceURI (m : NamespaceMap) (a : Alias) : Option Str := m.aliasToNs.get? a

/-- openid/message.py:619-631: there is an entry, and it is not the wanted one -/
def differs [DecidableEq α] (o : Option α) (x : α) : Bool :=
  match o with
  | some y => y != x
  | none => false

/-- openid/message.py:599-641 `addAlias`.  The alias is returned by the code; the model returns the
    new map.  `desired_alias` is always `NULL_NAMESPACE` or a text here, so the assertion of line 633
    holds by typing. -/
def addAlias (m : NamespaceMap) (uri : Str) (desired : Alias) (implicit : Bool := false) :
    Except PyErr NamespaceMap :=
  let fieldOk := match desired with
    | .null => true
    | .name s => !(OPENID_PROTOCOL_FIELDS.contains s) && !(s.contains '.')
  if !fieldOk then .error .assertionError
  else if differs (m.aliasToNs.get? desired) uri then
    .error .invalidNamespace
  else if differs (m.nsToAlias.get? uri) desired then
    .error .invalidNamespace
  else if m.implicit.contains uri then .error .assertionError
  else .ok {
    aliasToNs := m.aliasToNs.set desired uri
    nsToAlias := m.nsToAlias.set uri desired
    implicit := if implicit then m.implicit ++ [uri] else m.implicit }

/-- openid/message.py:651-660: try `ext0`, `ext1`, ... until one is free.  The number of attempts is
    bounded in the model; `add` passes a bound that is always enough (theorem `add_total`). -/
def addLoop (m : NamespaceMap) (uri : Str) : Nat → Nat → Except PyErr NamespaceMap
  | 0, _ => .error .runtimeError
  | fuel + 1, i =>
    match m.addAlias uri (.name (t!"ext" ++ natToStr i)) with
    | .ok m' => .ok m'
    | .error e => if e.isKeyError then addLoop m uri fuel (i + 1) else .error e

/-- openid/message.py:643-662 `add` -/
def add (m : NamespaceMap) (uri : Str) : Except PyErr NamespaceMap :=
  match m.nsToAlias.get? uri with
  | some _ => .ok m
  | none => addLoop m uri (m.aliasToNs.length + 1) 0

/-- openid/message.py:664 `isDefined`, 667 `__contains__` -/
def isDefined (m : NamespaceMap) (uri : Str) : Bool := m.nsToAlias.has uri

/-- openid/message.py:670 `isImplicit` -/
def isImplicit (m : NamespaceMap) (uri : Str) : Bool := m.implicit.contains uri

end NamespaceMap

/-! ## Message -/

/-- openid/message.py:127-157 `Message` -/
structure Msg where
  args : Dict (NsKey × Str) Str := []
  namespaces : NamespaceMap := {}
  deriving DecidableEq, Repr

/-- openid/message.py:105-124 `registerNamespaceAlias`; the exception is always
    NamespaceAliasRegistrationError, here `none` -/
def registerNamespaceAlias (reg : Dict Str Str) (uri alias : Str) : Option (Dict Str Str) :=
  if reg.get? alias = some uri then some reg
  else if uri ∈ reg.map (·.2) then none
  else if reg.has alias then none
  else some (reg.set alias uri)

/-- openid/message.py:281 `getOpenIDNamespace` -/
def Msg.getOpenIDNamespace (m : Msg) : Option Str := m.namespaces.getNamespaceURI .null

/-- openid/message.py:284 `isOpenID1` -/
def Msg.isOpenID1 (m : Msg) : Bool :=
  match m.getOpenIDNamespace with
  | some u => OPENID1_NAMESPACES.contains u
  | none => false

/-- openid/message.py:287 `isOpenID2` -/
def Msg.isOpenID2 (m : Msg) : Bool := m.getOpenIDNamespace = some OPENID2_NS

/-- openid/message.py:259-268 `_setOpenIDNamespace` -/
def Msg.setOpenIDNamespace (m : Msg) (uri : Str) (implicit : Bool) : Except PyErr Msg :=
  if [OPENID1_NS, THE_OTHER_OPENID1_NS, OPENID2_NS].contains uri then do
    let ns ← m.namespaces.addAlias uri .null implicit
    return { m with namespaces := ns }
  else .error .invalidOpenIDNamespace

/-- openid/message.py:143-157 `Message.__init__` -/
def Msg.new (openidNs : Option Str := none) (implicit : Option Bool := none) : Except PyErr Msg :=
  match openidNs with
  | none => .ok {}
  | some u =>
    let imp := match implicit with
      | some b => b
      | none => OPENID1_NAMESPACES.contains u
    Msg.setOpenIDNamespace {} u imp

/-- openid/message.py:405-431 `_fixNS` -/
def Msg.fixNS (m : Msg) (ns : Ns) : Except PyErr NsKey :=
  match ns with
  | .bare => .ok .bare
  | .openid => match m.getOpenIDNamespace with
    | none => .error .undefinedOpenIDNamespace
    | some u => .ok (.uri u)
  | .uri u => if u = t!"sreg" then .ok (.uri SREG_URI) else .ok (.uri u)
  | .other => .error .typeError

/-- openid/message.py:433 `hasKey` -/
def Msg.hasKey (m : Msg) (ns : Ns) (key : Str) : Except PyErr Bool := do
  let n ← m.fixNS ns
  return m.args.has (n, key)

/-- openid/message.py:440-454, the part of `getKey` after `_fixNS` -/
def Msg.keyOf (m : Msg) (n : NsKey) (key : Str) : Option Str :=
  match n with
  | .bare => some key
  | .uri u => match m.namespaces.getAlias u with
    | none => none
    | some .null => some (t!"openid." ++ key)
    | some (.name a) => some (t!"openid." ++ a ++ '.' :: key)

/-- openid/message.py:437-454 `getKey` -/
def Msg.getKey (m : Msg) (ns : Ns) (key : Str) : Except PyErr (Option Str) := do
  let n ← m.fixNS ns
  return m.keyOf n key

/-- openid/message.py:456-486 `getArg` with a default that is not `no_default`: `none` stands for the
    default -/
def Msg.getArg (m : Msg) (ns : Ns) (key : Str) : Except PyErr (Option Str) := do
  let n ← m.fixNS ns
  return m.args.get? (n, key)

/-- openid/message.py:456-486 `getArg` with `default=no_default` -/
def Msg.getArgReq (m : Msg) (ns : Ns) (key : Str) : Except PyErr Str := do
  let n ← m.fixNS ns
  match m.args.get? (n, key) with
  | some v => return v
  | none => throw .keyError

/-- openid/message.py:488-500 `getArgs` -/
def Msg.getArgs (m : Msg) (ns : Ns) : Except PyErr (Dict Str Str) := do
  let n ← m.fixNS ns
  return Dict.ofPairs (m.args.filterMap fun p => if p.1.1 = n then some (p.1.2, p.2) else none)

/-- openid/message.py:512-519 `setArg`.  `key is not None` and `value is not None` hold by typing. -/
def Msg.setArg (m : Msg) (ns : Ns) (key value : Str) : Except PyErr Msg := do
  let n ← m.fixNS ns
  let args := m.args.set (n, key) value
  match n with
  | .bare => return { m with args := args }
  | .uri u => do
    let nss ← m.namespaces.add u
    return ⟨args, nss⟩

/-- openid/message.py:502-510 `updateArgs`; each `setArg` fixes the (already fixed) namespace again -/
def Msg.updateArgs (m : Msg) (ns : Ns) (updates : Dict Str Str) : Except PyErr Msg := do
  let n ← m.fixNS ns
  updates.foldlM (fun m p => m.setArg n.toNs p.1 p.2) m

/-- openid/message.py:521-523 `delArg` -/
def Msg.delArg (m : Msg) (ns : Ns) (key : Str) : Except PyErr Msg := do
  let n ← m.fixNS ns
  if m.args.has (n, key) then return { m with args := m.args.del (n, key) }
  else throw .keyError

/-- openid/message.py:536-562 `getAliasedArg`; `none` stands for the default -/
def Msg.getAliasedArg (m : Msg) (key : Str) : Except PyErr (Option Str) :=
  if key = t!"ns" then .ok m.getOpenIDNamespace
  else if startsWith key t!"ns." then .ok (m.namespaces.getNamespaceURI (.name (key.drop 3)))
  else
    let dflt := match m.getOpenIDNamespace with
      | some u => m.getArg (.uri u) key
      | none => m.getArg .other key
    match cut '.' key with
    | none => dflt
    | some (alias, k) => match m.namespaces.getNamespaceURI (.name alias) with
      | some u => m.getArg (.uri u) k
      | none => dflt

/-! ### Parsing -/

/-- openid/message.py:167-182: split into the arguments that start with `openid.` (without that
    prefix) and the others -/
def partitionStep (acc : Dict Str Str × Dict Str Str) (p : Str × Str) : Dict Str Str × Dict Str Str :=
  match cut '.' p.1 with
  | some (pre, rest) =>
    if pre = t!"openid" then (acc.1.set rest p.2, acc.2) else (acc.1, acc.2.set p.1 p.2)
  | none => (acc.1, acc.2.set p.1 p.2)

/-- openid/message.py:163-182, the whole loop -/
def partitionArgs (args : Dict Str Str) : Dict Str Str × Dict Str Str :=
  args.foldl partitionStep ([], [])

/-- what the first loop of `_fromOpenIDArgs` collects -/
structure Collected where
  ns : Option Str := none
  namespaces : Dict Str Str := []
  args : List (Alias × Str × Str) := []
  deriving DecidableEq, Repr

/-- openid/message.py:207-221, one iteration -/
def collectStep (acc : Collected) (p : Str × Str) : Collected :=
  match cut '.' p.1 with
  | none =>
    if p.1 = t!"ns" then { acc with ns := some p.2 }
    else { acc with args := acc.args ++ [(.null, p.1, p.2)] }
  | some (a, k) =>
    if a = t!"ns" then { acc with namespaces := acc.namespaces.set k p.2 }
    else { acc with args := acc.args ++ [(.name a, k, p.2)] }

/-- openid/message.py:248-257 `_getDefaultNamespace` -/
def Msg.getDefaultNamespace (reg : Dict Str Str) (m : Msg) (alias : Str) : Option Str :=
  if m.isOpenID1 then reg.get? alias else none

/-- openid/message.py:233-245, one iteration: put one argument in its namespace -/
def placeArg (reg : Dict Str Str) (m : Msg) (p : Alias × Str × Str) : Except PyErr Msg :=
  match m.namespaces.getNamespaceURI p.1 with
  | some u => m.setArg (.uri u) p.2.1 p.2.2
  | none =>
    match p.1 with
    | .null => .error .typeError -- line 236: `registered_aliases.get(NULL_NAMESPACE)` then `setArg(None, ..)`; never reached, the OpenID namespace is always set
    | .name a =>
      match m.getDefaultNamespace reg a with
      | none => match m.getOpenIDNamespace with
        | some u => m.setArg (.uri u) (a ++ '.' :: p.2.1) p.2.2
        | none => .error .typeError
      | some u => do
        let nss ← m.namespaces.addAlias u (.name a) true
        { m with namespaces := nss }.setArg (.uri u) p.2.1 p.2.2

/-- openid/message.py:223-225: the declared OpenID namespace, or OpenID 1 implicitly -/
def startMsg (ns : Option Str) : Except PyErr Msg :=
  match ns with
  | some u => Msg.new (some u) (some false)
  | none => Msg.new (some OPENID1_NS) (some true)

/-- openid/message.py:200-246 `_fromOpenIDArgs`, 189-198 `fromOpenIDArgs` -/
def fromOpenIDArgs (reg : Dict Str Str) (args : Dict Str Str) : Except PyErr Msg := do
  let c := args.foldl collectStep {}
  let m ← startMsg c.ns
  let nss ← c.namespaces.foldlM (fun n p => n.addAlias p.2 (.name p.1)) m.namespaces
  c.args.foldlM (placeArg reg) { m with namespaces := nss }

/-- openid/message.py:159-187 `fromPostArgs` -/
def fromPostArgs (reg : Dict Str Str) (args : Dict Str Str) : Except PyErr Msg := do
  let (openidArgs, bareArgs) := partitionArgs args
  let m ← fromOpenIDArgs reg openidArgs
  return { m with args := bareArgs.foldl (fun a p => a.set (NsKey.bare, p.1) p.2) m.args }

/-- openid/message.py:290-293 `fromKVForm` -/
def fromKVForm (reg : Dict Str Str) (s : Str) : Except PyErr Msg := do
  let d ← KVForm.kvToDict s
  fromOpenIDArgs reg d

/-! ### Serialisation -/

/-- openid/message.py:303-310: the key that declares an alias -/
def nsDefKey : Alias → Str
  | .null => t!"openid.ns"
  | .name a => t!"openid.ns." ++ a

/-- openid/message.py:302-310, one iteration: declare a namespace unless it is implicit -/
def Msg.putNs (m : Msg) (d : Dict Str Str) (p : Str × Alias) : Dict Str Str :=
  if m.namespaces.isImplicit p.1 then d else d.set (nsDefKey p.2) p.1

/-- openid/message.py:312-316, one iteration: store an argument under its key.  The keys of
    `Message.args` are already fixed namespaces.  An argument whose namespace has no alias would be
    stored under the key `None`; the model drops it.  `setArg` adds an alias, so no message has such an
    argument (theorem `keyOf_isSome`). -/
def Msg.putArg (m : Msg) (d : Dict Str Str) (p : (NsKey × Str) × Str) : Dict Str Str :=
  match m.keyOf p.1.1 p.1.2 with
  | some k => d.set k p.2
  | none => d

/-- openid/message.py:297-318 `toPostArgs` -/
def Msg.toPostArgs (m : Msg) : Dict Str Str :=
  m.args.foldl m.putArg (m.namespaces.nsToAlias.foldl m.putNs [])

/-- openid/message.py:320-334 `toArgs` -/
def Msg.toArgs (m : Msg) : Except PyErr (Dict Str Str) :=
  m.toPostArgs.foldlM (fun d p =>
    if startsWith p.1 t!"openid." then .ok (Dict.set d (p.1.drop 7) p.2) else .error .valueError) []

/-- openid/message.py:381-384 `toURL` -/
def Msg.toURL (m : Msg) (base : Str) : Str := Oidutil.appendArgs base m.toPostArgs

/-- openid/message.py:386-391 `toKVForm` -/
def Msg.toKVForm (m : Msg) : Except PyErr Str := do
  let d ← m.toArgs
  KVForm.dictToKV d

/-- openid/message.py:393-403 `toURLEncoded` -/
def Msg.toURLEncoded (m : Msg) : Str :=
  Percent.urlencode (sortBy KVForm.pairLe m.toPostArgs)

/-- openid/extension.py:42-49: add the extension's alias, tolerating that it is there already -/
def Msg.extensionAlias (m : Msg) (uri alias : Str) : Except PyErr NamespaceMap :=
  match m.namespaces.addAlias uri (.name alias) m.isOpenID1 with
  | .ok n => .ok n
  | .error e =>
    if e.isKeyError && (m.namespaces.getAlias uri = some (.name alias)) then .ok m.namespaces
    else .error e

/-- openid/extension.py:28-51 `Extension.toMessage` with a given message; `uri`, `alias`, `args` are
    the extension's `ns_uri`, `ns_alias` and `getExtensionArgs()` -/
def Msg.addExtension (m : Msg) (uri alias : Str) (args : Dict Str Str) : Except PyErr Msg := do
  let nss ← m.extensionAlias uri alias
  { m with namespaces := nss }.updateArgs (.uri uri) args

end Message
