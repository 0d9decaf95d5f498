import Verif.Base.PyInt
import Verif.Base.Xml
import Verif.Model.Endpoint
/-! # Orders of services, delegation of XRIs -/

namespace Spec
open Py Xml

/-- The `priority` attribute of the element is the number `n`. -/
def Priority (X : ExtraDigits) (e : Elem) (n : Nat) : Prop := ∃ s, e.get t!"priority" = some s ∧ parseInt X s = .ok (n : Int)

/-- `a` may come before `b`: if `b` has a priority, `a` has one that is not greater. -/
def MayPrecede (X : ExtraDigits) (a b : Elem) : Prop := ∀ n, Priority X b n → ∃ m, Priority X a m ∧ m ≤ n

/-- neither has to come first -/
def SamePriority (X : ExtraDigits) (a b : Elem) : Prop := ∀ n, Priority X a n ↔ Priority X b n

/-- The first of the preferred types a service has, as an index; the number of preferred types if it has none. -/
def Rank (preferred types : List Str) (k : Nat) : Prop :=
  (∀ i < k, ∀ t, preferred[i]? = some t → t ∉ types) ∧
  ((∃ t, preferred[k]? = some t ∧ t ∈ types) ∨ k = preferred.length)

/-- Each identifier extends the one before it by one segment after a `!`; the first extends `root`. -/
def Delegates : Str → List Str → Prop
  | _, [] => True
  | root, id :: rest => (∃ seg, '!' ∉ seg ∧ id = root ++ '!' :: seg) ∧ Delegates id rest

/-- What is responsible for the names of an XRI, written without `xri://`: the cross-reference it begins with, or its
    first character if that is a global context symbol, or what comes before the first `!`, `*` or `/`. -/
def RootOf (name root : Str) : Prop :=
  (∃ ref rest, '/' ∉ ref ∧ ')' ∉ ref ∧ name = t!"(" ++ ref ++ t!")" ++ rest ∧ root = t!"(" ++ ref ++ t!")") ∨
  (∃ c rest, c ∈ t!"!=@+$" ∧ name = c :: rest ∧ root = [c]) ∨
  (∃ rest, name = root ++ rest ∧ (∀ c ∈ t!"!*/", c ∉ root) ∧ (rest = [] ∨ ∃ c ∈ t!"!*/", rest.head? = some c) ∧
    ∃ c, name.head? = some c ∧ c ∉ t!"!=@+$(/")

/-- the XRI without its scheme -/
def bare (xri : Str) : Str := if (t!"xri://").isPrefixOf xri then xri.drop 6 else xri

/-- the text of the first child of that tag -/
def firstText (e : Elem) (tag : Str) : Option Str := (e.children.find? fun c => c.tag = tag).map fun c => c.text.getD []

end Spec

namespace Spec
open Py

/-- a name that is looked up with the XRI resolver: `xri://…`, or one that begins with a global context symbol or a
cross-reference -/
def IsName (identifier : Str) : Prop :=
  (∃ rest, identifier = t!"xri://" ++ rest) ∨ ∃ c rest, c ∈ t!"!=@+$(" ∧ identifier = c :: rest

end Spec
