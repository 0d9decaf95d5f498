import Verif.Lemmas.FileSetup
/-! # C88: a file store can be opened by many processes at once -/

namespace Props
open Py FileSetup

/-- **C88** opened is opened: a store that was opened without an exception has its three directories, from then on, whatever
    others do, files in the way and failing calls included. -/
theorem c88_made (E : Env) (s : Dirs) (l : List Act) (d : Path) (h : (d, .ok ()) ∈ (after E s l).finished) :
    ∀ p ∈ [t!"nonces" :: d, t!"associations" :: d, t!"temp" :: d], isDir (after E s l).dirs p = true :=
  ((inv_after E s l).fin d _ h).1 rfl

/-- **C88** any number of processes opening stores in the same place or in different places at the same time, and others making
    directories: nobody gets an exception, unless a file is in the way or a call fails. -/
theorem c88_opens (E : Env) (s : Dirs) (l : List Act) (d : Path) (r : Except Errno Unit)
    (hc : ∀ n ∈ [t!"nonces", t!"associations", t!"temp"], ∀ q, q <:+ n :: d → E.file q = false ∧ E.faulty q = false)
    (h : (d, r) ∈ (after E s l).finished) : r = .ok () := by
  refine ((inv_after E s l).fin d r h).2 fun p hp => ?_
  simp only [parts, List.mem_cons, List.not_mem_nil, or_false] at hp
  rcases hp with rfl | rfl | rfl
  · exact hc _ (by simp)
  · exact hc _ (by simp)
  · exact hc _ (by simp)

/-- two processes open the store in /var/openid, where there is nothing yet, step by step in turn -/
def turns : List Act :=
  [.start 1 [t!"openid", t!"var"], .start 2 [t!"openid", t!"var"]] ++
    (List.replicate 20 [.run 1, .run 2]).flatten ++ [.finish 1, .finish 2]

example : (after ⟨fun _ => false, fun _ => false⟩ [] turns).finished =
      [([t!"openid", t!"var"], .ok ()), ([t!"openid", t!"var"], .ok ())] ∧
    (after ⟨fun _ => false, fun _ => false⟩ [] turns).dirs = [[t!"temp", t!"openid", t!"var"],
      [t!"associations", t!"openid", t!"var"], [t!"nonces", t!"openid", t!"var"], [t!"openid", t!"var"], [t!"var"]] := by
  decide +kernel

/-- **C88** the condition is needed: a file called `nonces`, and one in the place of a directory above. -/
theorem c88_in_the_way :
    (after ⟨fun p => p = [t!"nonces", t!"var"], fun _ => false⟩ [[t!"var"]]
      ([.start 1 [t!"var"]] ++ List.replicate 5 (.run 1) ++ [.finish 1])).finished = [([t!"var"], .error .eexist)] ∧
    (after ⟨fun p => p = [t!"var"], fun _ => false⟩ []
      ([.start 1 [t!"var"]] ++ List.replicate 5 (.run 1) ++ [.finish 1])).finished = [([t!"var"], .error .other)] := by
  decide +kernel

end Props
