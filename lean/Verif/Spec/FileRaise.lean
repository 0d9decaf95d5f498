import Verif.Spec.FileStore
/-! # What the file store may raise -/

namespace FileStore
open Py Files Store Association

/-- the text has `://` in it -/
def HasScheme (url : Str) : Prop := ∃ p r, url = p ++ t!"://" ++ r

/-- the handle or the type cannot be written to a file: a line break in it, or white space at an end -/
def Unwritable (a : Assoc) : Prop := ∃ v ∈ [a.handle, a.assocType], '\n' ∈ v ∨ strip v ≠ v

/-- The exceptions of each operation.  `sys`: calls of the system can go wrong.  `odd`: there may be a file in the
    nonce directory whose name does not begin with a time. -/
def MayRaise (sys odd : Prop) : Op → PyErr → Prop
  | .storeAssociation url a, e =>
    (e = .osError ∧ sys) ∨ (e = .valueError ∧ ¬ HasScheme url) ∨ (e = .kvFormError ∧ Unwritable a)
  | .getAssociation url h, e =>
    (e = .osError ∧ sys) ∨ (e = .valueError ∧ ¬ HasScheme url) ∨ (e = .typeError ∧ h.getD [] = [])
  | .removeAssociation url h, e =>
    (e = .osError ∧ sys) ∨ (e = .valueError ∧ ¬ HasScheme url) ∨ (e = .typeError ∧ h = [])
  | .useNonce url _ _, e => (e = .osError ∧ sys) ∨ (e = .valueError ∧ url ≠ [] ∧ ¬ HasScheme url)
  | .cleanupNonces, e => (e = .osError ∧ sys) ∨ (e = .valueError ∧ odd)
  | .cleanupAssociations, e => e = .osError ∧ sys

end FileStore
