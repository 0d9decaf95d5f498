import Verif.Base.Py
/-! # XML element trees

What python-openid uses of lxml.  Parsing is not modelled; comments, processing instructions and unresolved entities
are not elements and are left out. -/

namespace Xml
open Py

/-- an element: tag (`{namespace}name`), attributes, the text before the first child, children in order -/
inductive Elem where
  | mk (tag : Str) (attrs : Dict Str Str) (text : Option Str) (children : List Elem)

def Elem.tag : Elem → Str | .mk t _ _ _ => t
def Elem.attrs : Elem → Dict Str Str | .mk _ a _ _ => a
def Elem.text : Elem → Option Str | .mk _ _ t _ => t
def Elem.children : Elem → List Elem | .mk _ _ _ c => c

/-- `e.get(name)` -/
def Elem.get (e : Elem) (name : Str) : Option Str := e.attrs.get? name

/-- `e.findall(tag)`: the children with that tag, in order -/
def Elem.findall (e : Elem) (tag : Str) : List Elem := e.children.filter fun c => c.tag = tag

/-- `e.findtext(tag)`: the text of the first such child (`''` if it has none), `None` if there is no such child -/
def Elem.findtext (e : Elem) (tag : Str) : Option Str := (e.findall tag).head?.map fun c => c.text.getD []

end Xml
