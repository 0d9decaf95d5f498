import Verif.Model.Accept
/-! # Specification of content negotiation -/

namespace Spec
open Py Accept

variable {Q : Type} [DecidableEq Q]

/-- Numbers that are ordered. -/
structure Ordered (F : Floats Q) : Prop where
  irrefl : ∀ a, F.lt a a = false
  trans : ∀ a b c, F.lt a b = true → F.lt b c = true → F.lt a c = true
  total : ∀ a b, a ≠ b → F.lt a b = true ∨ F.lt b a = true

/-- An element of a header: a type, and the first parameter q that is a number, or one. -/
def IsEntry (F : Floats Q) (chunk main sub : Str) (q : Q) : Prop :=
  ∃ mtype params, splitOn ';' chunk = mtype :: params ∧ '/' ∉ main ∧ strip mtype = main ++ '/' :: sub ∧
    ((∃ pre p post v, params = pre ++ p :: post ∧ strip p = t!"q=" ++ v ∧ F.parse v = some q ∧
        ∀ p' ∈ pre, ∀ v' q', strip p' = t!"q=" ++ v' → F.parse v' ≠ some q') ∨
     q = F.one ∧ ∀ p' ∈ params, ∀ v' q', strip p' = t!"q=" ++ v' → F.parse v' ≠ some q')

/-- The greatest of some numbers and a least one. -/
def Greatest (F : Floats Q) (least : Q) (l : List Q) (q : Q) : Prop :=
  (q = least ∨ q ∈ l) ∧ F.lt q least = false ∧ ∀ x ∈ l, F.lt q x = false

/-- The numbers that entries have for a type itself, for its main type with any subtype, for any type. -/
def exactly (A : List (Str × Str × Q)) (main sub : Str) : List Q :=
  (A.filter fun e => e.1 ≠ t!"*" ∧ e.2.1 ≠ t!"*" ∧ e.1 = main ∧ e.2.1 = sub).map (·.2.2)
def mainly (A : List (Str × Str × Q)) (main : Str) : List Q :=
  (A.filter fun e => e.1 ≠ t!"*" ∧ e.2.1 = t!"*" ∧ e.1 = main).map (·.2.2)
def anyhow (A : List (Str × Str × Q)) : List Q := (A.filter fun e => e.1 = t!"*").map (·.2.2)

/-- The quality of a type: the most specific entries count, of several the greatest; without any entry all types are
    good. -/
def IsQuality (F : Floats Q) (A : List (Str × Str × Q)) (main sub : Str) (q : Q) : Prop :=
  if exactly A main sub ≠ [] then Greatest F F.zero (exactly A main sub) q
  else if mainly A main ≠ [] then Greatest F F.zero (mainly A main) q
  else Greatest F (if A = [] then F.one else F.zero) (anyhow A) q

/-- A list has the entries of a header: those of its elements, between commas, that are of the form type/subtype. -/
def Entries (F : Floats Q) (header : Str) (A : List (Str × Str × Q)) : Prop :=
  ∃ entry : Str → Option (Str × Str × Q),
    (∀ chunk main sub q, entry chunk = some (main, sub, q) ↔ IsEntry F chunk main sub q) ∧
    A.Perm (((splitOn ',' header).map strip).filterMap entry)

/-- A type of the form main/sub. -/
def IsType (t main sub : Str) : Prop := '/' ∉ main ∧ '/' ∉ sub ∧ t = main ++ '/' :: sub

/-- Which of the available types are returned, with which quality, and in which order.  Each of them is of the form
    main/sub and is returned as often as it is available, unless its quality is zero; those with a lesser distance to one
    are earlier; those at the same distance keep their order. -/
def Acceptable (F : Floats Q) (A : List (Str × Str × Q)) (available : List Str) (out : List (Str × Q)) : Prop :=
  ∃ qual : Str → Q, ∃ good, good = (available.filter fun t => qual t ≠ F.zero).map (fun t => (t, qual t)) ∧
    (∀ t ∈ available, ∃ main sub, IsType t main sub ∧ IsQuality F A main sub (qual t)) ∧
    out.Perm good ∧
    (out.Pairwise fun a b => F.lt (F.minus b.2) (F.minus a.2) = false) ∧
    ∀ m, out.filter (fun p => F.minus p.2 = m) = good.filter (fun p => F.minus p.2 = m)

/-- How numbers are written: without spaces, commas and semicolons, so that the text is a number again, and one for the
    text that is left out. -/
structure Writes (F : Floats Q) (round : Q → Q) : Prop where
  plain : ∀ q, ∀ c ∈ F.fmt q, isSpace c = false ∧ c ≠ ',' ∧ c ≠ ';'
  reads : ∀ q, F.parse (F.fmt q) = some (round q)
  one : F.parse t!"1.0" = some F.one

/-- A type that can be an element of a header. -/
def ListedType (t main sub : Str) : Prop :=
  t = main ++ '/' :: sub ∧ '/' ∉ main ∧ strip t = t ∧ ',' ∉ t ∧ ';' ∉ t

end Spec
