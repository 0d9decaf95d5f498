import Verif.Model.Published
import Verif.Spec.Discover
/-! # A provider's site, as discovery sees it -/

namespace Spec
open Py Xml Discover

/-- the reply is a page whose head is that of this tree -/
structure ShowsPage (W : World) (url : Str) (root : Elem) (o : Except PyErr Page) : Prop where
  shown : ∃ p text, o = .ok p ∧ p.finalUrl = url ∧ p.status = 200 ∧ p.headers.get? t!"content-type" = some t!"text/html" ∧
    p.headers.get? t!"x-xrds-location" = none ∧ Utf8.decode p.body = .ok text ∧ W.htmlText text = some root

/-- the reply is a document that is parsed to this tree -/
structure ShowsDocument (W : World) (root : Elem) (o : Except PyErr Page) : Prop where
  shown : ∃ p, o = .ok p ∧ p.status = 200 ∧ W.xml p.body = some root

/-- shuffling a list changes at most its order -/
def FairShuffles (W : World) : Prop := (∀ i l, (W.shuffle i l).Perm l) ∧ ∀ i l, (W.shuffleURIs i l).Perm l

end Spec
