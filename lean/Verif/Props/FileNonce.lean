import Verif.Lemmas.FilePrompt
import Verif.Props.FileNames
import Verif.Props.MemStore
/-! # C18: nonces in the file store, under concurrency

The system (`Verif/Base/FileSystem.lean`): any number of processes, each running operations of the store as
sequences of system calls, interleaved in any way; calls may fail, processes may die anywhere, time only
moves forward.  `cfg.started` lists the operations called so far, `cfg.finished` those that returned, with
their results. -/

namespace Props
open Py Association Store Files FileStore

/-- **C18** at most once, in any execution in which the clock does not move out of the nonce's window while a call with
    that time is going on. -/
theorem c18_once (W : World) (E : Env) (cfg : Config Op Answer) (url : Str) (t : Int) (salt : Str)
    (h : Prompt W E (· = t) cfg) : cfg.finished.count (Op.useNonce url t salt, .ok (.bool true)) ≤ 1 :=
  (timely_ninv (prompt_timely h).2).uniqF url t salt rfl

/-- **C18** at most once, in any execution whatever as long as nobody calls `cleanupNonces`. -/
theorem c18_once_no_cleanup (W : World) (E : Env) (allowed : Config Op Answer → Proc Op Answer → Prop)
    (cfg : Config Op Answer) (h : Reachable E (program W) allowed cfg)
    (hc : Op.cleanupNonces ∉ cfg.started) (url : Str) (t : Int) (salt : Str) :
    cfg.finished.count (Op.useNonce url t salt, .ok (.bool true)) ≤ 1 :=
  (ninv_reachable (T := fun _ => True) (G := fun _ _ => False) (fun _ _ _ _ h => h) (fun _ _ _ _ _ _ _ _ _ h => h) h
    fun op hop t => good_program' W op t (by rintro rfl; exact hc hop)).uniqF url t salt trivial

def world0 : World := ⟨hash0, fun _ => none, clock0, 0⟩

/-- three processes: two use the same nonce at the same time and one of them wins, another dies just after
    having created its file, a cleanup comes later and removes both files, and a late attempt is refused -/
def schedule0 : List (Act Op) :=
  [.start 1 (.useNonce t!"http://op/" 5 t!"s"), .start 2 (.useNonce t!"http://op/" 5 t!"s"),
   .start 3 (.useNonce t!"http://op/" 5 t!"z"), .run 1, .run 2, .run 3, .run 2, .run 1, .run 3, .crash 3, .finish 1,
   .run 2, .finish 2, .tick 18006000, .start 1 .cleanupNonces, .run 1, .run 1, .run 1, .run 1, .finish 1,
   .start 2 (.useNonce t!"http://op/" 5 t!"s"), .run 2, .finish 2]

example : ∃ cfg, Prompt world0 ⟨false, fun _ => True⟩ (fun _ => True) cfg ∧
    cfg.finished.reverse = [(.useNonce t!"http://op/" 5 t!"s", .ok (.bool false)),
      (.useNonce t!"http://op/" 5 t!"s", .ok (.bool true)), (.cleanupNonces, .ok (.count 2)),
      (.useNonce t!"http://op/" 5 t!"s", .ok (.bool false))] :=
  ⟨_, (play_prompt world0 _ (fun _ => true) 4 schedule0 (by decide)).mono fun _ _ => rfl, by decide +kernel⟩

/-- **C18** the assumption is needed.  One process checks the clock and is held up; another uses the nonce;
    the window ends and a cleanup removes the file; the first process goes on and creates it again: the
    nonce has been accepted twice. -/
theorem c18_race : ∃ cfg, Reachable ⟨false, fun _ => False⟩ (program world0) (fun _ _ => True) cfg ∧
    cfg.finished.count (Op.useNonce t!"http://op/" 5 t!"s", .ok (.bool true)) = 2 :=
  ⟨_, play_reachable (test := fun _ _ => true) (fun _ _ _ => trivial)
    [.start 1 (.useNonce t!"http://op/" 5 t!"s"), .run 1,
     .start 2 (.useNonce t!"http://op/" 5 t!"s"), .run 2, .run 2, .run 2, .finish 2,
     .tick 18006000, .start 3 .cleanupNonces, .run 3, .run 3, .run 3, .finish 3,
     .run 1, .run 1, .finish 1], by decide +kernel⟩

/-- **C18** what one call answers, alone.  It is refused outside the window and when the file is there; it is
    accepted otherwise, unless a system call fails.  Exactly the nonce's own file is added. -/
theorem c18_answer (W : World) (E : Env) (now : Nat) (fs fs' : FS) (url : Str) (t : Int) (salt name : Str)
    (out : Except PyErr Answer) (hn : nonceName W.sha1 url t salt = .ok name)
    (h : Run E now fs (program W (.useNonce url t salt)) out fs') :
    (¬ W.clock.within 18000 now t → out = .ok (.bool false) ∧ fs' = fs) ∧
    (W.clock.within 18000 now t → name ∈ fs.nonces → fs' = fs ∧ (out = .ok (.bool false) ∨
      (out = .error .osError ∧ ∃ c, E.faulty c))) ∧
    (W.clock.within 18000 now t → name ∉ fs.nonces →
      (out = .ok (.bool true) ∧ fs' = { fs with nonces := name :: fs.nonces }) ∨
      (out = .error .osError ∧ ∃ c, E.faulty c)) := by
  rw [program_useNonce] at h
  cases h with
  | sys hx h =>
    cases hx with
    | fault _ _ _ hr => simp [Call.fault] at hr
    | time =>
      simp only [useNonceAt, hn] at h
      split at h
      · next ho =>
        rw [outside_iff] at ho
        have ho' : ¬ W.clock.within 18000 now t := ho
        cases h
        exact ⟨fun _ => ⟨rfl, rfl⟩, fun hw => absurd hw ho', fun hw => absurd hw ho'⟩
      · next ho =>
        rw [outside_iff, Classical.not_not] at ho
        have ho' : W.clock.within 18000 now t := ho
        refine ⟨fun hw => absurd ho' hw, ?_⟩
        cases h with
        | sys hx h =>
          cases hx with
          | fault _ _ hf hr =>
            simp only [Call.fault, Option.some.injEq] at hr
            subst hr
            cases h
            exact ⟨fun _ _ => ⟨rfl, .inr ⟨rfl, _, hf⟩⟩, fun _ _ => .inr ⟨rfl, _, hf⟩⟩
          | openExcl _ hno =>
            refine ⟨fun _ hin => absurd hin hno, fun _ _ => ?_⟩
            cases h with
            | sys hx h =>
              cases hx with
              | fault _ _ hf hr =>
                simp only [Call.fault, Option.some.injEq] at hr
                subst hr
                cases h
                exact .inr ⟨rfl, _, hf⟩
              | close => cases h; exact .inl ⟨rfl, rfl⟩
          | openExclExists _ hin =>
            cases h
            exact ⟨fun _ _ => ⟨rfl, .inl rfl⟩, fun _ hno => absurd hin hno⟩

/-- **C18** what is not accepted for good: a server URL without `://` (other than the empty one) raises. -/
theorem c18_bad_url (W : World) (E : Env) (now : Nat) (fs fs' : FS) (url : Str) (t : Int) (salt : Str)
    (out : Except PyErr Answer) (hu : ∀ p r, url ≠ p ++ t!"://" ++ r) (he : url ≠ [])
    (hw : W.clock.within 18000 now t)
    (h : Run E now fs (program W (.useNonce url t salt)) out fs') : out = .error .valueError ∧ fs' = fs := by
  have hn : nonceName W.sha1 url t salt = .error .valueError := by
    rw [nonceName, nonceParts, if_neg he]
    cases hc : cutStr t!"://" url with
    | none => rfl
    | some q => exact absurd (cutStr_eq (p := q.1) (r := q.2) hc) (hu q.1 q.2)
  rw [program_useNonce] at h
  cases h with
  | sys hx h =>
    cases hx with
    | fault _ _ _ hr => simp [Call.fault] at hr
    | time =>
      have : outside W.clock now t = false := by
        rw [← Bool.not_eq_true, outside_iff, Classical.not_not]; exact hw
      simp only [useNonceAt, hn, this] at h
      cases h
      exact ⟨rfl, rfl⟩

example : (runDet 0 FS.empty (program world0 (.useNonce t!"op" 0 t!"s"))).1 = .error .valueError := by
  decide +kernel

end Props
