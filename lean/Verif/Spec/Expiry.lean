import Verif.Base.Xml
/-! # The element of an XRD that says when it expires -/

namespace Spec
open Py Xml

/-- the `Expires` children of an XRD -/
def expiresElems (xrd : Elem) : List Elem := xrd.children.filter fun c => c.tag = t!"{xri://$xrd*($v*2.0)}Expires"

end Spec
