import Verif.Model.Ax
import Verif.Spec.Sreg
/-! # Specification of attribute exchange messages -/

namespace Spec
open Py Ax Message Association

/-- The type that arguments give to an alias. -/
def typeOf (args : Dict Str Str) (a : Str) : Option Str := args.get? (t!"type." ++ a)

/-- The number of values that is asked for: one unless another positive number, or `unlimited`, is given. -/
def CountIs (X : ExtraDigits) (args : Dict Str Str) (a : Str) (c : Count) : Prop :=
  ((args.get? (t!"count." ++ a) = none ∨ args.get? (t!"count." ++ a) = some []) ∧ c = .num 1) ∨
  ∃ s, args.get? (t!"count." ++ a) = some s ∧ s ≠ [] ∧
    ((∃ n, parseInt X s = .ok n ∧ 0 < n ∧ c = .num n) ∨ ((∀ n, parseInt X s ≠ .ok n) ∧ s = t!"unlimited" ∧ c = .unlimited))

/-- An alias that can stand in a message. -/
def Nameable (a : Str) : Prop := ',' ∉ a ∧ '.' ∉ a ∧ a ∉ OPENID_PROTOCOL_FIELDS

/-- The types of arguments: each alias can stand in a message, and no type has two. -/
structure TypesOk (args : Dict Str Str) : Prop where
  alias : ∀ a u, typeOf args a = some u → Nameable a
  once : ∀ a b u, typeOf args a = some u → typeOf args b = some u → a = b

/-- Arguments that are a fetch request. -/
structure FetchOk (X : ExtraDigits) (args : Dict Str Str) : Prop where
  mode : args.get? t!"mode" = some t!"fetch_request"
  types : TypesOk args
  count : ∀ a u, typeOf args a = some u → ∃ c, CountIs X args a c
  listed : ∀ a u, typeOf args a = some u → a ∈ namesIn (args.get? t!"required") ∨ a ∈ namesIn (args.get? t!"if_available")
  defined : ∀ a, a ∈ namesIn (args.get? t!"required") ∨ a ∈ namesIn (args.get? t!"if_available") → ∃ u, typeOf args a = some u

/-- The values of an alias: one under `value.alias`, or as many as `count.alias` says under `value.alias.1` and so on. -/
def ValuesAre (X : ExtraDigits) (args : Dict Str Str) (a : Str) (vs : List Str) : Prop :=
  (args.get? (t!"count." ++ a) = none ∧
    ∃ v, args.get? (t!"value." ++ a) = some v ∧ vs = if v = [] then [] else [v]) ∨
  ∃ s n, args.get? (t!"count." ++ a) = some s ∧ parseInt X s = .ok n ∧ vs.length = n.toNat ∧
    ∀ i v, vs[i]? = some v → args.get? (t!"value." ++ a ++ t!"." ++ natToStr (i + 1)) = some v

/-- Arguments that are a fetch response or a store request. -/
structure ValuesOk (X : ExtraDigits) (mode : Str) (args : Dict Str Str) : Prop where
  mode : args.get? t!"mode" = some mode
  types : TypesOk args
  values : ∀ a u, typeOf args a = some u → ∃ vs, ValuesAre X args a vs

/-- The arguments hold exactly these values: what is given for the other keys, and for each attribute its type, the
    number of its values, and its values. -/
def Holds (args : Dict Str Str) (other : Str → Str → Prop) (name : Str → Str) (vals : Str → Option (List Str)) : Prop :=
  ∀ k v, args.get? k = some v ↔ other k v ∨ ∃ u vs, vals u = some vs ∧
    (k = t!"type." ++ name u ∧ v = u ∨ k = t!"count." ++ name u ∧ v = natToStr vs.length ∨
      ∃ i, k = t!"value." ++ name u ++ t!"." ++ natToStr (i + 1) ∧ vs[i]? = some v)

/-- The names of attributes are different and can stand in a message. -/
def Names (name : Str → Str) (has : Str → Prop) : Prop :=
  (∀ u, has u → Nameable (name u)) ∧ ∀ u v, has u → has v → name u = name v → u = v

/-- A request to which attributes were only added. -/
structure Made (r : FetchRequest) : Prop where
  wf : Dict.WF r.requested
  key : ∀ u i, r.requested.get? u = some i → i.typeUri = u
  alias : ∀ u i a, r.requested.get? u = some i → i.alias = some a → ',' ∉ a ∧ '.' ∉ a

/-- The arguments ask exactly for what a request asks for: the type of each attribute, the number of values unless it is
    one, and the two lists. -/
def Asks (args : Dict Str Str) (name : Str → Str) (r : FetchRequest) : Prop :=
  ∀ k v, args.get? k = some v ↔
    k = t!"mode" ∧ v = t!"fetch_request" ∨
    (∃ u i, r.requested.get? u = some i ∧ (k = t!"type." ++ name u ∧ v = u ∨
      i.count ≠ .num 1 ∧ k = t!"count." ++ name u ∧ v = i.count.text)) ∨
    (k = t!"required" ∧ (r.requested.filter (·.2.required)).map (fun x => name x.1) ≠ [] ∧
      v = join t!"," ((r.requested.filter (·.2.required)).map (fun x => name x.1))) ∨
    (k = t!"if_available" ∧ (r.requested.filter (!·.2.required)).map (fun x => name x.1) ≠ [] ∧
      v = join t!"," ((r.requested.filter (!·.2.required)).map (fun x => name x.1)))

/-- A number of values that can be asked for. -/
def Countable (c : Count) : Prop := c = .unlimited ∨ ∃ n : Int, 0 < n ∧ c = .num n

/-- Additions to a request, which may fail. -/
def adds (r : FetchRequest) : List (Str × Count × Bool × Option Str) → FetchRequest
  | [] => r
  | (u, c, b, a) :: rest =>
    match AttrInfo.new u c b a with
    | .error _ => adds r rest
    | .ok i => match r.add i with
      | .error _ => adds r rest
      | .ok r' => adds r' rest

/-- Aliases that are added, for one type after the other. -/
def aliasMap (m : NamespaceMap) : List (Str × Str) → Except PyErr NamespaceMap
  | [] => .ok m
  | x :: l => do aliasMap (← m.addAlias x.1 (.name x.2)) l

/-- More values than were asked for. -/
def Exceeds (i : AttrInfo) (vs : List Str) : Prop := ∃ n : Int, i.count = .num n ∧ n < vs.length

/-- Operations on the values of a message. -/
inductive ValueOp where
  | add (uri value : Str)
  | set (uri : Str) (values : List Str)

/-- The values after an operation. -/
def valueStep (d : Data) : ValueOp → Data
  | .add u v => addValue d u v
  | .set u vs => setValues d u vs

/-- What an operation does to the values of each type. -/
def valueSpec (f : Str → Option (List Str)) : ValueOp → Str → Option (List Str)
  | .add u v => fun w => if w = u then some ((f u).getD [] ++ [v]) else f w
  | .set u vs => fun w => if w = u then some vs else f w

end Spec
