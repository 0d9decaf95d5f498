import Verif.Model.Consumer
/-! # What is shown of an identifier -/

namespace Spec
open Py

/-- A URL as it is shown: http or https, a host in ASCII (no IPv6 address), and a path; no fragment; and no question mark or
    semicolon after which nothing follows. -/
def Showable (u : Str) : Prop :=
  ∃ scheme host path more, u = scheme ++ t!"://" ++ host ++ t!"/" ++ path ++ more ∧
    (scheme = t!"http" ∨ scheme = t!"https") ∧
    host ≠ [] ∧ (∀ c ∈ host, c.toNat < 128 ∧ c ∉ t!"/?#[]") ∧
    (∀ c ∈ path, c ∉ t!"?#") ∧ path.getLast? ≠ some ';' ∧
    (more = [] ∨ ∃ q, more = '?' :: q ∧ q ≠ [] ∧ '#' ∉ q) ∧
    ∀ c ∈ host ++ path ++ more, 32 < c.toNat

end Spec
