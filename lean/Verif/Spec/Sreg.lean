import Verif.Model.Sreg
/-! # Specification of simple registration -/

namespace Spec
open Py Sreg

/-- The nine fields of simple registration. -/
def sregFields : List Str :=
  [t!"nickname", t!"email", t!"fullname", t!"dob", t!"gender", t!"postcode", t!"country", t!"language", t!"timezone"]

/-- What is asked for: `some true` a required field, `some false` an optional one. -/
abbrev Wanted := Str → Option Bool

/-- Ask for one more field; a required field stays required. -/
def Wanted.ask (w : Wanted) (f : Str) (required : Bool) : Wanted :=
  fun g => if g = f then some (required || w f = some true) else w g

/-- It is refused if it is no field of simple registration or, when strict, it is asked for already. -/
def Wanted.allows (w : Wanted) (f : Str) (strict : Bool) : Prop := f ∈ sregFields ∧ (strict = true → w f = none)

instance (w : Wanted) (f : Str) (strict : Bool) : Decidable (w.allows f strict) := by unfold Wanted.allows; infer_instance

/-- Ask for fields in turn until one is refused; with whether none was. -/
def Wanted.askAll (w : Wanted) (strict : Bool) : List (Str × Bool) → Wanted × Bool
  | [] => (w, true)
  | (f, required) :: rest => if w.allows f strict then (w.ask f required).askAll strict rest else (w, false)

/-- Ask for all that are not refused. -/
def Wanted.tryAll (w : Wanted) : List (Str × Bool) → Wanted
  | [] => w
  | (f, required) :: rest => if w.allows f false then (w.ask f required).tryAll rest else w.tryAll rest

/-- The names in a list separated by commas. -/
def namesIn (items : Option Str) : List Str :=
  match items with
  | none => []
  | some s => if s = [] then [] else splitOn ',' s

/-- The fields that arguments ask for. -/
def namesOf (args : Dict Str Str) : List (Str × Bool) :=
  (namesIn (args.get? t!"required")).map (·, true) ++ (namesIn (args.get? t!"optional")).map (·, false)

/-- What a request asks for. -/
def wanted (r : Request) : Wanted := fun f =>
  if f ∈ r.required then some true else if f ∈ r.optional then some false else none

/-- No field twice, and only fields of simple registration. -/
def Proper (r : Request) : Prop := (r.required ++ r.optional).Nodup ∧ ∀ f ∈ r.required ++ r.optional, f ∈ sregFields

/-- The operations of a request. -/
inductive SregOp where
  | field (f : Str) (required strict : Bool)
  | fields (fs : List Str) (required strict : Bool)
  | parse (args : Dict Str Str) (strict : Bool)

/-- The request after an operation, which may have failed. -/
def sregStep (r : Request) : SregOp → Request
  | .field f required strict => match r.requestField f required strict with
    | .ok r' => r'
    | .error _ => r
  | .fields fs required strict => (r.requestFields fs required strict).1
  | .parse args strict => (r.parseExtensionArgs args strict).1

/-- What is wanted after an operation. -/
def wantStep (w : Wanted) : SregOp → Wanted
  | .field f required strict => (w.askAll strict [(f, required)]).1
  | .fields fs required strict => (w.askAll strict (fs.map (·, required))).1
  | .parse args true => (w.askAll true (namesOf args)).1
  | .parse args false => w.tryAll (namesOf args)

end Spec
