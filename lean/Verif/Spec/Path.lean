/-! # Specification of dot-segment removal

A path is walked segment by segment, as one walks directories: `.` stays, `..` goes one level up
(staying at the root when already there), any other segment goes down.  A final `.` or `..` leaves
one at the directory itself, written with a trailing slash (an empty last segment). -/

namespace Spec

/-- the absolute path with these segments: `/s₁/s₂/...` -/
def absPath (segs : List (List Char)) : List Char := (segs.map ('/' :: ·)).flatten

/-- `.` or `..` -/
def IsDot (s : List Char) : Prop := s = ['.'] ∨ s = ['.', '.']

instance (s : List Char) : Decidable (IsDot s) := inferInstanceAs (Decidable (_ ∨ _))

/-- where one ends up from the directory `here` after following the segments -/
def walk (here : List (List Char)) : List (List Char) → List (List Char)
  | [] => here
  | [s] =>
    if s = ['.'] then here ++ [[]]
    else if s = ['.', '.'] then here.dropLast ++ [[]]
    else here ++ [s]
  | s :: t :: r =>
    if s = ['.'] then walk here (t :: r)
    else if s = ['.', '.'] then walk here.dropLast (t :: r)
    else walk (here ++ [s]) (t :: r)

end Spec
