import Verif.Base.Py
/-! # What a browser finds in a page: its tags, with their attributes, and its forms

A reader of the part of HTML that matters here: tags begin with `<` and a letter or `/`; attribute values are in double
quotes, in single quotes or bare; references in them are decimal, or one of the named ones.  What is between the tags is
left out. -/

namespace Spec
open Py

/-- the character a reference stands for, without its `&` and `;` -/
def reference (s : Str) : Option Char :=
  match s with
  | '#' :: digits => if digits ≠ [] ∧ digits.all (fun c => '0' ≤ c ∧ c ≤ '9') then
      some (Char.ofNat (digits.foldl (fun n c => 10 * n + (c.toNat - 48)) 0)) else none
  | _ => if s = t!"amp" then some '&' else if s = t!"lt" then some '<' else if s = t!"gt" then some '>'
    else if s = t!"quot" then some '"' else if s = t!"apos" then some '\'' else none

/-- one more character of an attribute value: the value so far, and the reference that has begun -/
def attrStep : Str × Option Str → Char → Str × Option Str
  | (v, none), c => if c = '&' then (v, some []) else (v ++ [c], none)
  | (v, some r), c =>
    if c = ';' then
      match reference r with
      | some x => (v ++ [x], none)
      | none => (v ++ '&' :: r ++ [';'], none)
    else if c = '&' then (v ++ '&' :: r, some [])
    else (v, some (r ++ [c]))

/-- what an attribute value written like this says -/
def valueOf (s : Str) : Str :=
  match s.foldl attrStep ([], none) with
  | (v, none) => v
  | (v, some r) => v ++ '&' :: r

/-- a tag: its name (with a `/` in front if it closes) and attributes -/
structure Tag where
  name : Str
  attrs : List (Str × Str)
  deriving DecidableEq, Repr

/-- where the reader is -/
inductive At where
  | text
  | less
  | name (n : Str)
  | tag (t : Tag)
  | attr (t : Tag) (a : Str)
  | equals (t : Tag) (a : Str)
  | value (t : Tag) (a : Str) (quote : Option Char) (raw : Str)
  deriving DecidableEq, Repr

def isBlank (c : Char) : Bool := c = ' ' || c = '\n' || c = '\t' || c = '\r'

def isAlpha (c : Char) : Bool := ('a' ≤ c && c ≤ 'z') || ('A' ≤ c && c ≤ 'Z')

def Tag.add (t : Tag) (a v : Str) : Tag := { t with attrs := t.attrs ++ [(a, v)] }

/-- one more character: the tags so far, and where the reader is -/
def readStep : List Tag × At → Char → List Tag × At
  | (ts, .text), c => (ts, if c = '<' then .less else .text)
  | (ts, .less), c => (ts, if isAlpha c || c = '/' then .name [c] else if c = '<' then .less else .text)
  | (ts, .name n), c =>
    if c = '>' then (ts ++ [⟨n, []⟩], .text)
    else if isBlank c || c = '/' then (ts, .tag ⟨n, []⟩)
    else (ts, .name (n ++ [c]))
  | (ts, .tag t), c =>
    if c = '>' then (ts ++ [t], .text)
    else if isBlank c || c = '/' then (ts, .tag t)
    else (ts, .attr t [c])
  | (ts, .attr t a), c =>
    if c = '=' then (ts, .equals t a)
    else if c = '>' then (ts ++ [t.add a []], .text)
    else if isBlank c || c = '/' then (ts, .tag (t.add a []))
    else (ts, .attr t (a ++ [c]))
  | (ts, .equals t a), c =>
    if c = '"' || c = '\'' then (ts, .value t a (some c) [])
    else if isBlank c then (ts, .equals t a)
    else if c = '>' then (ts ++ [t.add a []], .text)
    else (ts, .value t a none [c])
  | (ts, .value t a (some q) raw), c =>
    if c = q then (ts, .tag (t.add a (valueOf raw))) else (ts, .value t a (some q) (raw ++ [c]))
  | (ts, .value t a none raw), c =>
    if c = '>' then (ts ++ [t.add a (valueOf raw)], .text)
    else if isBlank c then (ts, .tag (t.add a (valueOf raw)))
    else (ts, .value t a none (raw ++ [c]))

/-- the tags of a page -/
def tagsOf (page : Str) : List Tag := (page.foldl readStep ([], .text)).1

/-- a form: its attributes, and those of each of its inputs -/
structure HtmlForm where
  attrs : List (Str × Str)
  inputs : List (List (Str × Str))
  deriving DecidableEq, Repr

/-- one more tag: the forms so far, and the one that is open -/
def formStep : List HtmlForm × Option HtmlForm → Tag → List HtmlForm × Option HtmlForm
  | (fs, none), t => if t.name = t!"form" then (fs, some ⟨t.attrs, []⟩) else (fs, none)
  | (fs, some f), t =>
    if t.name = t!"/form" then (fs ++ [f], none)
    else if t.name = t!"input" then (fs, some { f with inputs := f.inputs ++ [t.attrs] })
    else (fs, some f)

/-- the forms of a page -/
def formsOf (page : Str) : List HtmlForm := ((tagsOf page).foldl formStep ([], none)).1

/-- the value of an attribute; the first one counts -/
def attrOf (attrs : List (Str × Str)) (name : Str) : Option Str := (attrs.find? fun p => p.1 = name).map (·.2)

/-- what is sent when the form is: name and value of the inputs that have a name -/
def HtmlForm.fields (f : HtmlForm) : List (Str × Str) :=
  f.inputs.filterMap fun i => (attrOf i t!"name").map fun n => (n, (attrOf i t!"value").getD [])

/-- The page has one form: it is posted to that URL, as UTF-8 and form-encoded, with those fields, none of which is
    shown. -/
def Posts (page url : Str) (fields : List (Str × Str)) : Prop :=
  ∃ f, formsOf page = [f] ∧ attrOf f.attrs t!"action" = some url ∧ attrOf f.attrs t!"method" = some t!"post" ∧
    attrOf f.attrs t!"accept-charset" = some t!"UTF-8" ∧
    attrOf f.attrs t!"enctype" = some t!"application/x-www-form-urlencoded" ∧ f.fields = fields ∧
    ∀ i ∈ f.inputs, (∃ n, attrOf i t!"name" = some n) → attrOf i t!"type" = some t!"hidden"

/-- The page sends its form as soon as it is loaded; the form is in the body. -/
def SubmitsItself (page : Str) : Prop :=
  ∃ before t after, tagsOf page = before ++ t :: after ∧ (∀ x ∈ before, x.name ≠ t!"form") ∧
    t.name = t!"body" ∧ attrOf t.attrs t!"onload" = some t!"document.forms[0].submit();"

/-- The form has the attributes given, as far as they are not those of `Posts`. -/
def Bears (page : Str) (attrs : Dict Str Str) : Prop :=
  ∃ f, formsOf page = [f] ∧ ∀ k, k ∉ [t!"action", t!"method", t!"accept-charset", t!"enctype"] →
    attrOf f.attrs k = attrs.get? k

/-- what can be the name of an attribute -/
def AttrName (n : Str) : Prop := n ≠ [] ∧ ∀ c ∈ n, c ≠ '=' ∧ c ≠ '>' ∧ c ≠ '/' ∧ isBlank c = false

/-- text that can be in a page -/
def Legible (s : Str) : Prop :=
  ∀ c ∈ s, c = '\t' ∨ c = '\n' ∨ c = '\r' ∨ (32 ≤ c.toNat ∧ c.toNat ≠ 0xFFFE ∧ c.toNat ≠ 0xFFFF)

instance : DecidablePred Legible := fun s => inferInstanceAs (Decidable (∀ c ∈ s, _))

end Spec
