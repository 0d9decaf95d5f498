import Verif.Model.Consumer
import Verif.Base.Words
/-! # Model of openid/extensions/pape.py and openid/extensions/draft/pape2.py

`openid/extensions/draft/pape5.py` gives the names of `pape.py` again.  Levels are texts (line 466 makes them texts).
Where a method raises, what it left in the object is not modelled; nor is that a list given to `__init__` is the
caller's list. -/

namespace Pape
open Py Message Association

/-- openid/extensions/pape.py:28 `ns_uri`; openid/extensions/draft/pape2.py:29 -/
def nsUri : Str := t!"http://specs.openid.net/extensions/pape/1.0"
/-- openid/extensions/pape.py:117, 285 `ns_alias`; openid/extensions/draft/pape2.py:55, 168 -/
def nsAlias : Str := t!"pape"
/-- openid/extensions/pape.py:36-37 `AUTH_NONE` -/
def AUTH_NONE : Str := t!"http://schemas.openid.net/pape/policies/2007/06/none"
/-- openid/extensions/pape.py:41 `LEVELS_NIST` -/
def LEVELS_NIST : Str := t!"http://csrc.nist.gov/publications/nistpubs/800-63/SP800-63V1_0_2.pdf"
/-- openid/extensions/pape.py:42 `LEVELS_JISA` -/
def LEVELS_JISA : Str := t!"http://www.jisa.or.jp/spec/auth_level.html"

/-- openid/extensions/pape.py:46-49 `_default_auth_level_aliases` -/
def defaultAliases : Dict Str Str := [(t!"nist", LEVELS_NIST), (t!"jisa", LEVELS_JISA)]

/-- openid/extensions/pape.py:86-95 `_getAlias`; `none` for the `KeyError` -/
def getAlias (m : Dict Str Str) (uri : Str) : Option Str :=
  match m.find? (fun p => p.2 = uri) with
  | some p => some p.1
  | none => none

/-- openid/extensions/pape.py:77-84 `_generateAlias`: from `i`, so many times -/
def generateFrom (m : Dict Str Str) (i : Nat) : Nat → Except PyErr Str
  | 0 => .error .runtimeError
  | n + 1 => if m.has (t!"cust" ++ natToStr i) then generateFrom m (i + 1) n else .ok (t!"cust" ++ natToStr i)

/-- openid/extensions/pape.py:77-84 `_generateAlias` -/
def generateAlias (m : Dict Str Str) : Except PyErr Str := generateFrom m 0 1000

/-- openid/extensions/pape.py:64-73: the alias to use -/
def chooseAlias (m : Dict Str Str) (uri : Str) (alias : Option Str) : Except PyErr Str :=
  match alias with
  | none =>
    match getAlias m uri with
    | some a => .ok a
    | none => generateAlias m
  | some a =>
    match m.get? a with
    | some u => if u = uri then .ok a else .error .keyError
    | none => .ok a

/-- openid/extensions/pape.py:54-75 `_addAuthLevelAlias` -/
def addAlias (m : Dict Str Str) (uri : Str) (alias : Option Str) : Except PyErr (Dict Str Str) := do
  let a ← chooseAlias m uri alias
  return m.set a uri

/-- openid/extensions/pape.py:39 `TIME_VALIDATOR`: a text against a pattern where `d` stands for a digit; `$` also matches
    before a line feed at the end -/
def timeMatches (X : ExtraDigits) : Str → Str → Bool
  | [], s => s = [] || s = ['\n']
  | _ :: _, [] => false
  | p :: ps, c :: s => (if p = 'd' then (digitVal X c).isSome else p = c) && timeMatches X ps s

/-- openid/extensions/pape.py:39, openid/extensions/draft/pape2.py:38 `TIME_VALIDATOR.match` -/
def timeOk (X : ExtraDigits) (s : Str) : Bool := timeMatches X t!"dddd-dd-ddTdd:dd:ddZ" s

/-- openid/extensions/pape.py:149-150, 154-155, 219-220, 352-353: append what is not there -/
def addOnce (l : List Str) (x : Str) : List Str := if l.contains x then l else l ++ [x]

/-- openid/extensions/pape.py:98-127 `Request` -/
structure Request where
  policies : List Str := []
  maxAge : Option Int := none
  levelTypes : List Str := []
  aliases : Dict Str Str := defaultAliases
  deriving DecidableEq, Repr

/-- openid/extensions/pape.py:139-150 `Request.addPolicyURI` -/
def Request.addPolicyURI (r : Request) (uri : Str) : Request := { r with policies := addOnce r.policies uri }

/-- openid/extensions/pape.py:152-155 `addAuthLevel` -/
def Request.addAuthLevel (r : Request) (uri : Str) (alias : Option Str) : Except PyErr Request := do
  let m ← addAlias r.aliases uri alias
  return { r with aliases := m, levelTypes := addOnce r.levelTypes uri }

/-- openid/extensions/pape.py:129-131: one level after the other -/
def Request.addAll (r : Request) : List Str → Except PyErr Request
  | [] => .ok r
  | u :: us => do (← r.addAuthLevel u none).addAll us

/-- openid/extensions/pape.py:119-131 `Request.__init__` -/
def Request.new (policies : List Str) (maxAge : Option Int) (levelTypes : List Str) : Except PyErr Request :=
  Request.addAll { policies := policies, maxAge := maxAge } levelTypes

/-- openid/extensions/pape.py:133-134 `__bool__` -/
def Request.truth (r : Request) : Bool := !r.policies.isEmpty || r.maxAge.isSome || !r.levelTypes.isEmpty

/-- openid/extensions/pape.py:170-171: the levels with their aliases -/
def aliased (m : Dict Str Str) : List Str → Except PyErr (List (Str × Str))
  | [] => .ok []
  | u :: us =>
    match getAlias m u with
    | none => .error .keyError
    | some a => do return (a, u) :: (← aliased m us)

/-- openid/extensions/pape.py:172, 465: the key of a declaration -/
def nsKey (a : Str) : Str := t!"auth_level.ns." ++ a

/-- openid/extensions/pape.py:157-177 `Request.getExtensionArgs`: the assignments, in their order -/
def Request.getExtensionArgs (r : Request) : Except PyErr (Dict Str Str) := do
  let l ← aliased r.aliases r.levelTypes
  return Dict.ofPairs ([(t!"preferred_auth_policies", join t!" " r.policies)] ++
    (match r.maxAge with
      | some n => [(t!"max_auth_age", intToStr n)]
      | none => []) ++
    (if r.levelTypes.isEmpty then [] else
      l.map (fun p => (nsKey p.1, p.2)) ++ [(t!"preferred_auth_level_types", join t!" " (l.map (·.1)))]))

/-- openid/extensions/pape.py:213-220: the policies -/
def parsePolicies (s : Option Str) : List Str :=
  match s with
  | some (c :: cs) => (splitOn ' ' (c :: cs)).foldl addOnce []
  | _ => []

/-- openid/extensions/pape.py:222-231: the age -/
def parseAge (X : ExtraDigits) (s : Option Str) (strict : Bool) : Except PyErr (Option Int) :=
  match s with
  | some (c :: cs) =>
    match parseInt X (c :: cs) with
    | .ok n => .ok (some n)
    | .error e => if strict then .error e else .ok none
  | _ => .ok none

/-- openid/extensions/pape.py:239-246 and 429-435: the level that an alias stands for -/
def levelOf (args : Dict Str Str) (openid1 : Bool) (a : Str) : Option Str :=
  match args.get? (nsKey a) with
  | some u => some u
  | none => if openid1 then defaultAliases.get? a else none

/-- openid/extensions/pape.py:238-253: one alias after the other -/
def Request.parseLevels (r : Request) (args : Dict Str Str) (openid1 strict : Bool) : List Str → Except PyErr Request
  | [] => .ok r
  | a :: rest =>
    match levelOf args openid1 a with
    | none => if strict then .error .valueError else r.parseLevels args openid1 strict rest
    | some u => do (← r.addAuthLevel u (some a)).parseLevels args openid1 strict rest

/-- openid/extensions/pape.py:234-236: the aliases that are listed -/
def listedAliases (s : Option Str) : List Str :=
  match s with
  | some (c :: cs) => words (strip (c :: cs))
  | _ => []

/-- openid/extensions/pape.py:194-253 `Request.parseExtensionArgs` -/
def Request.parseExtensionArgs (X : ExtraDigits) (r : Request) (args : Dict Str Str) (openid1 strict : Bool) :
    Except PyErr Request := do
  let age ← parseAge X (args.get? t!"max_auth_age") strict
  let r := { r with policies := parsePolicies (args.get? t!"preferred_auth_policies"), maxAge := age }
  r.parseLevels args openid1 strict (listedAliases (args.get? t!"preferred_auth_level_types"))

/-- openid/extensions/pape.py:180-192 `Request.fromOpenIDRequest`, with the message of the request -/
def Request.fromOpenIDRequest (X : ExtraDigits) (m : Msg) : Except PyErr (Option Request) := do
  let args ← m.getArgs (.uri nsUri)
  if args.isEmpty then return none
  else do
    let r ← Request.parseExtensionArgs X {} args m.isOpenID1 false
    return some r

/-- openid/extensions/pape.py:255-271 `preferredTypes` -/
def Request.preferredTypes (r : Request) (supported : List Str) : List Str := supported.filter (r.policies.contains ·)

/-- openid/extensions/pape.py:277-302 `Response` -/
structure Response where
  policies : List Str := []
  authTime : Option Str := none
  levels : Dict Str Str := []
  aliases : Dict Str Str := defaultAliases
  deriving DecidableEq, Repr

/-- openid/extensions/pape.py:304-316 `setAuthLevel` -/
def Response.setAuthLevel (r : Response) (uri level : Str) (alias : Option Str) : Except PyErr Response := do
  let m ← addAlias r.aliases uri alias
  return { r with aliases := m, levels := r.levels.set uri level }

/-- openid/extensions/pape.py:301-302: one level after the other -/
def Response.setAll (r : Response) : List (Str × Str) → Except PyErr Response
  | [] => .ok r
  | p :: ps => do (← r.setAuthLevel p.1 p.2 none).setAll ps

/-- openid/extensions/pape.py:287-302 `Response.__init__` -/
def Response.new (policies : List Str) (authTime : Option Str) (levels : Dict Str Str) : Except PyErr Response :=
  Response.setAll { policies := policies, authTime := authTime } levels

/-- openid/extensions/pape.py:318-328 `getAuthLevel` -/
def Response.getAuthLevel (r : Response) (uri : Str) : Except PyErr Str :=
  match r.levels.get? uri with
  | some l => .ok l
  | none => .error .keyError

/-- openid/extensions/pape.py:331-336 `nist_auth_level` -/
def Response.nistAuthLevel (X : ExtraDigits) (r : Response) : Except PyErr (Option Int) :=
  match r.getAuthLevel LEVELS_NIST with
  | .error e => if e.isKeyError then .ok none else .error e
  | .ok l => do return some (← parseInt X l)

/-- openid/extensions/pape.py:338-353 `Response.addPolicyURI` -/
def Response.addPolicyURI (r : Response) (uri : Str) : Except PyErr Response :=
  if uri = AUTH_NONE then .error .runtimeError else .ok { r with policies := addOnce r.policies uri }

/-- openid/extensions/pape.py:397-403: the policies as they are sent -/
def sentPolicies (s : Option Str) : List Str :=
  match s with
  | some (c :: cs) => splitOn ' ' (c :: cs)
  | _ => []

/-- openid/extensions/pape.py:400-412: what is refused -/
def policiesBad (s : Option Str) : Bool :=
  (match s with
    | some (_ :: _) => false
    | _ => true) ||
  (1 < (sentPolicies s).length && (sentPolicies s).contains AUTH_NONE) || (sentPolicies s).contains t!"none"

/-- openid/extensions/pape.py:421-442: one argument -/
def Response.parseLevel (args : Dict Str Str) (openid1 strict : Bool) (r : Response) (kv : Str × Str) : Except PyErr Response :=
  if startsWith kv.1 t!"auth_level." then
    if startsWith (kv.1.drop 11) t!"ns." then .ok r
    else
      match levelOf args openid1 (kv.1.drop 11) with
      | none => if strict then .error .valueError else .ok r
      | some u => r.setAuthLevel u kv.2 (some (kv.1.drop 11))
  else .ok r

/-- openid/extensions/pape.py:444-449: the time -/
def Response.parseTime (X : ExtraDigits) (r : Response) (s : Option Str) (strict : Bool) : Except PyErr Response :=
  match s with
  | some (c :: cs) =>
    if timeOk X (c :: cs) then .ok { r with authTime := some (c :: cs) }
    else if strict then .error .valueError else .ok r
  | _ => .ok r

/-- openid/extensions/pape.py:384-449 `Response.parseExtensionArgs` -/
def Response.parseExtensionArgs (X : ExtraDigits) (r : Response) (args : Dict Str Str) (openid1 strict : Bool) :
    Except PyErr Response := do
  if strict && policiesBad (args.get? t!"auth_policies") then throw .valueError
  let r := { r with
    policies := (sentPolicies (args.get? t!"auth_policies")).filter (fun u => !([t!"none", AUTH_NONE].contains u)) }
  let r ← args.foldlM (Response.parseLevel args openid1 strict) r
  r.parseTime X (args.get? t!"auth_time") strict

/-- openid/extensions/pape.py:356-382 `Response.fromSuccessResponse`, with the message and its signed fields -/
def Response.fromSuccessResponse (X : ExtraDigits) (m : Msg) (signedFields : List Str) : Except PyErr (Option Response) := do
  match ← Consumer.getSignedNS m signedFields (.uri nsUri) with
  | some args => do
    let r ← Response.parseExtensionArgs X {} args m.isOpenID1 false
    return some r
  | none => return none

/-- openid/extensions/pape.py:465-466: what is assigned for one level -/
def levelArgs (p : Str × Str × Str) : List (Str × Str) := [(nsKey p.1, p.2.1), (t!"auth_level." ++ p.1, p.2.2)]

/-- openid/extensions/pape.py:463-464: the levels with their aliases -/
def aliasedLevels (m : Dict Str Str) : List (Str × Str) → Except PyErr (List (Str × Str × Str))
  | [] => .ok []
  | (u, l) :: rest =>
    match getAlias m u with
    | none => .error .keyError
    | some a => do return (a, u, l) :: (← aliasedLevels m rest)

/-- openid/extensions/pape.py:468-472: the time -/
def timeArgs (X : ExtraDigits) (t : Option Str) : Except PyErr (List (Str × Str)) :=
  match t with
  | none => .ok []
  | some s => if timeOk X s then .ok [(t!"auth_time", s)] else .error .valueError

/-- openid/extensions/pape.py:451-474 `Response.getExtensionArgs`: the assignments, in their order -/
def Response.getExtensionArgs (X : ExtraDigits) (r : Response) : Except PyErr (Dict Str Str) := do
  let l ← aliasedLevels r.aliases r.levels
  let t ← timeArgs X r.authTime
  return Dict.ofPairs ([(t!"auth_policies", if r.policies.isEmpty then AUTH_NONE else join t!" " r.policies)] ++
    l.flatMap levelArgs ++ t)

/-! ## draft 2 -/

/-- openid/extensions/draft/pape2.py:41-63 `Request` -/
structure Request2 where
  policies : List Str := []
  maxAge : Option Int := none
  deriving DecidableEq, Repr

/-- openid/extensions/draft/pape2.py:71-82 `addPolicyURI` -/
def Request2.addPolicyURI (r : Request2) (uri : Str) : Request2 := { r with policies := addOnce r.policies uri }

/-- openid/extensions/draft/pape2.py:84-94 `getExtensionArgs` -/
def Request2.getExtensionArgs (r : Request2) : Dict Str Str :=
  [(t!"preferred_auth_policies", join t!" " r.policies)] ++
  match r.maxAge with
  | some n => [(t!"max_auth_age", intToStr n)]
  | none => []

/-- openid/extensions/draft/pape2.py:110-139 `parseExtensionArgs` -/
def Request2.parseExtensionArgs (X : ExtraDigits) (args : Dict Str Str) : Request2 :=
  { policies := parsePolicies (args.get? t!"preferred_auth_policies")
    maxAge := match parseAge X (args.get? t!"max_auth_age") false with
      | .ok n => n
      | .error _ => none }

/-- openid/extensions/draft/pape2.py:97-108 `fromOpenIDRequest`, with the message of the request -/
def Request2.fromOpenIDRequest (X : ExtraDigits) (m : Msg) : Except PyErr (Option Request2) := do
  let args ← m.getArgs (.uri nsUri)
  if args.isEmpty then return none else return some (Request2.parseExtensionArgs X args)

/-- openid/extensions/draft/pape2.py:141-157 `preferredTypes` -/
def Request2.preferredTypes (r : Request2) (supported : List Str) : List Str := supported.filter (r.policies.contains ·)

/-- openid/extensions/draft/pape2.py:163-179 `Response` -/
structure Response2 where
  policies : List Str := []
  authTime : Option Str := none
  nist : Option Int := none
  deriving DecidableEq, Repr

/-- openid/extensions/draft/pape2.py:181-192 `addPolicyURI` -/
def Response2.addPolicyURI (r : Response2) (uri : Str) : Response2 := { r with policies := addOnce r.policies uri }

/-- openid/extensions/draft/pape2.py:235-237: the policies -/
def Response2.parsePolicies (r : Response2) (s : Option Str) : List Str :=
  match s with
  | some (c :: cs) => if (c :: cs) = t!"none" then r.policies else splitOn ' ' (c :: cs)
  | _ => r.policies

/-- openid/extensions/draft/pape2.py:239-251: the level -/
def Response2.parseNist (X : ExtraDigits) (r : Response2) (s : Option Str) (strict : Bool) : Except PyErr (Option Int) :=
  match s with
  | some (c :: cs) =>
    match parseInt X (c :: cs) with
    | .ok n => .ok (if 0 ≤ n ∧ n < 5 then some n else r.nist)
    | .error _ => if strict then .error .valueError else .ok none
  | _ => .ok r.nist

/-- openid/extensions/draft/pape2.py:253-258: the time -/
def Response2.parseTime (X : ExtraDigits) (r : Response2) (s : Option Str) (strict : Bool) : Except PyErr (Option Str) :=
  match s with
  | some (c :: cs) =>
    if timeOk X (c :: cs) then .ok (some (c :: cs)) else if strict then .error .valueError else .ok r.authTime
  | _ => .ok r.authTime

/-- openid/extensions/draft/pape2.py:222-258 `parseExtensionArgs` -/
def Response2.parseExtensionArgs (X : ExtraDigits) (r : Response2) (args : Dict Str Str) (strict : Bool) :
    Except PyErr Response2 := do
  let nist ← r.parseNist X (args.get? t!"nist_auth_level") strict
  let time ← r.parseTime X (args.get? t!"auth_time") strict
  return ⟨r.parsePolicies (args.get? t!"auth_policies"), time, nist⟩

/-- openid/extensions/draft/pape2.py:195-220 `fromSuccessResponse`, with the message and its signed fields -/
def Response2.fromSuccessResponse (X : ExtraDigits) (m : Msg) (signedFields : List Str) : Except PyErr (Option Response2) := do
  match ← Consumer.getSignedNS m signedFields (.uri nsUri) with
  | some args => do
    let r ← Response2.parseExtensionArgs X {} args false
    return some r
  | none => return none

/-- openid/extensions/draft/pape2.py:272-276: the level -/
def nistArgs (n : Option Int) : Except PyErr (List (Str × Str)) :=
  match n with
  | none => .ok []
  | some n => if 0 ≤ n ∧ n < 5 then .ok [(t!"nist_auth_level", intToStr n)] else .error .valueError

/-- openid/extensions/draft/pape2.py:260-284 `getExtensionArgs` -/
def Response2.getExtensionArgs (X : ExtraDigits) (r : Response2) : Except PyErr (Dict Str Str) := do
  let n ← nistArgs r.nist
  let t ← timeArgs X r.authTime
  return [(t!"auth_policies", if r.policies.isEmpty then t!"none" else join t!" " r.policies)] ++ n ++ t

end Pape
