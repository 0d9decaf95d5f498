import Verif.Model.Discover
/-! # Model of the documents that the provider in examples/server.py publishes

The documents are given as the trees that parsers make of them; that they do is an assumption of the theorems (a name with markup
in it makes other documents, as it is not escaped).  Of a page only the head is modelled.  Replies are taken to be sent (under Python 3
the program writes texts where bytes are expected, and fails). -/

namespace Published
open Py Xml Discover

/-- an element with a text -/
def leaf (tag text : Str) : Elem := .mk tag [] (some text) []

/-- the document around a service -/
def document (service : List Elem) : Elem :=
  .mk Etxrd.rootTag [] (some t!"\n  ")
    [.mk Etxrd.xrdElemTag [] (some t!"\n\n    ") [.mk Etxrd.serviceTag [(t!"priority", t!"0")] (some t!"\n      ") service]]

/-- examples/server.py:461, 487: the address of the endpoint -/
def endpointUrl (base : Str) : Str := base ++ t!"openidserver"

/-- examples/server.py:462: the address of a user -/
def userUrl (base user : Str) : Str := base ++ t!"id/" ++ user

/-- examples/server.py:456-480 `showYadis` -/
def userDocument (base user : Str) : Elem :=
  document [leaf Etxrd.typeTag OPENID_2_0_TYPE, leaf Etxrd.typeTag OPENID_1_0_TYPE, leaf Etxrd.uriTag (endpointUrl base),
    leaf localIDTag (userUrl base user)]

/-- examples/server.py:482-502 `showServerYadis` -/
def serverDocument (base : Str) : Elem :=
  document [leaf Etxrd.typeTag OPENID_IDP_2_0_TYPE, leaf Etxrd.uriTag (endpointUrl base)]

/-- examples/server.py:583-599 `showPage`: a page of that title with this in its head -/
def page (title : Str) (head : List Elem) : Elem :=
  .mk t!"html" [] none [.mk t!"head" [] none (leaf t!"title" (t!"Python OpenID Server Example - " ++ title) :: head)]

/-- examples/server.py:432, 505: where the document is -/
def locationTag (url : Str) : Elem := .mk t!"meta" [(t!"http-equiv", t!"x-xrds-location"), (t!"content", url)] none []

/-- examples/server.py:429-434 `showIdPage` -/
def idPage (base user : Str) : Elem :=
  page t!"An Identity Page" [.mk t!"link" [(t!"rel", t!"openid.server"), (t!"href", endpointUrl base)] none [],
    locationTag (base ++ t!"yadis/" ++ user)]

/-- examples/server.py:504-506 `showMainPage` -/
def mainPage (base : Str) : Elem := page t!"Main Page" [locationTag (base ++ t!"serveryadis")]

end Published
