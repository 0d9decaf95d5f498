import Verif.Model.Pape
/-! # Specification of policy messages -/

namespace Spec
open Py Message Association

/-- The level that an alias stands for: the one that is declared, in OpenID 1 also the two that are well known. -/
def standsFor (args : Dict Str Str) (openid1 : Bool) (a : Str) : Option Str :=
  (args.get? (t!"auth_level.ns." ++ a)).or
    (if openid1 = false then none
     else if a = t!"nist" then some t!"http://csrc.nist.gov/publications/nistpubs/800-63/SP800-63V1_0_2.pdf"
     else if a = t!"jisa" then some t!"http://www.jisa.or.jp/spec/auth_level.html"
     else none)

/-- A well-known alias for another level. -/
def Misused (a u : Str) : Prop :=
  a = t!"nist" ∧ u ≠ t!"http://csrc.nist.gov/publications/nistpubs/800-63/SP800-63V1_0_2.pdf" ∨
  a = t!"jisa" ∧ u ≠ t!"http://www.jisa.or.jp/spec/auth_level.html"

/-- A time such as 2008-01-31T12:00:00Z, where any decimal digits will do, and a line feed may follow. -/
def IsTime (X : ExtraDigits) (s : Str) : Prop :=
  ∃ t, (s = t ∨ s = t ++ ['\n']) ∧ t.length = 20 ∧ ∀ i c, t[i]? = some c →
    if i = 4 ∨ i = 7 then c = '-' else if i = 10 then c = 'T' else if i = 13 ∨ i = 16 then c = ':' else
    if i = 19 then c = 'Z' else (digitVal X c).isSome = true

/-- Aliases of levels: the well-known ones are there. -/
structure AliasesOk (m : Dict Str Str) : Prop where
  wf : Dict.WF m
  nist : m.get? t!"nist" = some t!"http://csrc.nist.gov/publications/nistpubs/800-63/SP800-63V1_0_2.pdf"
  jisa : m.get? t!"jisa" = some t!"http://www.jisa.or.jp/spec/auth_level.html"

/-- A request as its methods leave it. -/
structure RequestOk (r : Pape.Request) : Prop where
  aliases : AliasesOk r.aliases
  once : r.levelTypes.Nodup
  named : ∀ u ∈ r.levelTypes, ∃ a, r.aliases.get? a = some u

/-- A response as its methods leave it. -/
structure ResponseOk (r : Pape.Response) : Prop where
  aliases : AliasesOk r.aliases
  wf : Dict.WF r.levels
  named : ∀ u l, r.levels.get? u = some l → ∃ a, r.aliases.get? a = some u

/-- What can be done with a request. -/
inductive RequestOp where
  | policy (uri : Str)
  | level (uri : Str) (alias : Option Str)

/-- The request after an operation, which may have failed. -/
def requestStep (r : Pape.Request) : RequestOp → Pape.Request
  | .policy u => r.addPolicyURI u
  | .level u a => match r.addAuthLevel u a with
    | .ok r' => r'
    | .error _ => r

/-- What can be done with a response. -/
inductive ResponseOp where
  | policy (uri : Str)
  | level (uri level : Str) (alias : Option Str)

/-- The response after an operation, which may have failed. -/
def responseStep (r : Pape.Response) : ResponseOp → Pape.Response
  | .policy u => match r.addPolicyURI u with
    | .ok r' => r'
    | .error _ => r
  | .level u l a => match r.setAuthLevel u l a with
    | .ok r' => r'
    | .error _ => r

/-- The arguments of a request, exactly. -/
def RequestArgs (args : Dict Str Str) (name : Str → Str) (r : Pape.Request) : Prop :=
  ∀ k v, args.get? k = some v ↔
    k = t!"preferred_auth_policies" ∧ v = join t!" " r.policies ∨
    (k = t!"max_auth_age" ∧ ∃ n, r.maxAge = some n ∧ v = intToStr n) ∨
    (∃ u ∈ r.levelTypes, k = t!"auth_level.ns." ++ name u ∧ v = u) ∨
    (k = t!"preferred_auth_level_types" ∧ r.levelTypes ≠ [] ∧ v = join t!" " (r.levelTypes.map name))

/-- The arguments of a response, exactly. -/
def ResponseArgs (args : Dict Str Str) (name : Str → Str) (r : Pape.Response) : Prop :=
  ∀ k v, args.get? k = some v ↔
    k = t!"auth_policies" ∧ v = (if r.policies = [] then Pape.AUTH_NONE else join t!" " r.policies) ∨
    (∃ u l, r.levels.get? u = some l ∧ (k = t!"auth_level.ns." ++ name u ∧ v = u ∨ k = t!"auth_level." ++ name u ∧ v = l)) ∨
    (k = t!"auth_time" ∧ r.authTime = some v)

/-- Policies that a list separated by blanks can hold. -/
def Listable (l : List Str) : Prop := (∀ p ∈ l, ' ' ∉ p) ∧ l ≠ [[]]

instance (l : List Str) : Decidable (Listable l) := by unfold Listable; infer_instance

/-- An alias that a list separated by spaces can hold. -/
def WordLike (a : Str) : Prop := a ≠ [] ∧ ∀ c ∈ a, isSpace c = false

/-- The parts of a text between blanks; none of an empty text or none. -/
def parts (o : Option Str) : List Str := if o = none ∨ o = some [] then [] else splitOn ' ' (o.getD [])

/-- The words of a text. -/
def wordsIn (o : Option Str) : List Str := words (o.getD [])

/-- A level that arguments have for a type, under an alias. -/
def HasLevel (args : Dict Str Str) (openid1 : Bool) (a u l : Str) : Prop :=
  args.get? (t!"auth_level." ++ a) = some l ∧ startsWith a t!"ns." = false ∧ standsFor args openid1 a = some u

/-- Giving a level an alias: what becomes of the aliases.  `alias` is the alias that is asked for, if one is. -/
inductive Aliased (m : Dict Str Str) (u : Str) (alias : Option Str) : Except PyErr (Dict Str Str) → Prop where
  /-- the alias that is asked for is free -/
  | given (a : Str) : alias = some a → m.get? a = none → Aliased m u alias (.ok (m ++ [(a, u)]))
  /-- the alias that is asked for already stands for the level -/
  | again (a : Str) : alias = some a → m.get? a = some u → Aliased m u alias (.ok m)
  /-- the alias that is asked for stands for another level -/
  | clash (a w : Str) : alias = some a → m.get? a = some w → w ≠ u → Aliased m u alias (.error .keyError)
  /-- no alias is asked for and there is one -/
  | kept (a : Str) : alias = none → m.get? a = some u → Aliased m u alias (.ok m)
  /-- no alias is asked for and there is none: the first of cust0 to cust999 that is free -/
  | made (j : Nat) : alias = none → (∀ a, m.get? a ≠ some u) → j < 1000 → m.get? (t!"cust" ++ natToStr j) = none →
      (∀ i < j, m.get? (t!"cust" ++ natToStr i) ≠ none) → Aliased m u alias (.ok (m ++ [(t!"cust" ++ natToStr j, u)]))
  /-- no alias is asked for, there is none, and none of cust0 to cust999 is free -/
  | full : alias = none → (∀ a, m.get? a ≠ some u) → (∀ i < 1000, m.get? (t!"cust" ++ natToStr i) ≠ none) →
      Aliased m u alias (.error .runtimeError)

/-- A list with a text that it may already have. -/
def once (l : List Str) (x : Str) : List Str := if x ∈ l then l else l ++ [x]

end Spec
