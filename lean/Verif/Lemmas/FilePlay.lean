import Verif.Base.FileSystem
/-! # Playing a schedule

To exhibit concrete executions: a system without failures, driven by a list of actions. -/

namespace Files
open Py

/-- a name longer than all the names taken -/
def freshName (l : List Str) : Str := List.replicate ((l.map List.length).sum + 1) 'T'

theorem freshName_not_mem (l : List Str) : freshName l ∉ l := by
  intro h
  have h1 : (freshName l).length ≤ (l.map List.length).sum := by
    generalize freshName l = x at h
    induction l with
    | nil => simp at h
    | cons a r ih =>
      rw [List.map_cons, List.sum_cons]
      rcases List.mem_cons.1 h with rfl | h
      · omega
      · have := ih h; omega
  simp only [freshName, List.length_replicate] at h1
  omega

/-- one system call, when nothing fails -/
def execDet (t : Nat) (fs : FS) : (c : Call) → c.Reply × FS
  | .time => (t, fs)
  | .openExcl n => if n ∈ fs.nonces then (.error .eexist, fs) else (.ok (), { fs with nonces := n :: fs.nonces })
  | .close => (.ok (), fs)
  | .listdir d => (.ok (fs.names d), fs)
  | .unlink d n => if n ∈ fs.names d then (.ok (), fs.remove d n) else (.error .enoent, fs)
  | .mkstemp => (.ok (freshName (fs.names .temp), fs.next),
      { fs with temp := Dict.set fs.temp (freshName (fs.names .temp)) fs.next,
                data := fun j => if j = fs.next then [] else fs.data j,
                synced := fun j => if j = fs.next then [] else fs.synced j, next := fs.next + 1 })
  | .fdopen => (.ok (), fs)
  | .write i b => (.ok (), fs.setData i (fs.data i ++ b))
  | .fsync i => (.ok (), fs.setSynced i)
  | .rename tmp n => match Dict.get? fs.temp tmp with
    | some i => (.ok (), { fs with assocs := Dict.set fs.assocs n i, temp := Dict.del fs.temp tmp })
    | none => (.error .enoent, fs)
  | .openRead n => match Dict.get? fs.assocs n with
    | some i => (.ok i, fs)
    | none => (.error .enoent, fs)
  | .read i => (.ok (fs.data i), fs)

theorem execDet_exec (F : Call → Prop) (t : Nat) (fs : FS) (c : Call) :
    Exec ⟨false, F⟩ t fs c (execDet t fs c).1 (execDet t fs c).2 := by
  cases c with
  | time => exact .time fs
  | openExcl n =>
    simp only [execDet]
    split
    · next h => exact .openExclExists fs n h
    · next h => exact .openExcl fs n h
  | close => exact .close fs
  | listdir d => exact .listdir fs d _ (List.Perm.refl _)
  | unlink d n =>
    simp only [execDet]
    split
    · next h => exact .unlink fs d n h
    · next h => exact .unlinkNone fs d n h
  | mkstemp => exact .mkstemp fs _ (freshName_not_mem _)
  | fdopen => exact .fdopen fs
  | write i b => exact .write fs i b
  | fsync i => exact .fsync fs i
  | rename tmp n =>
    simp only [execDet]
    split
    · next h => exact .rename fs tmp n _ h (by simp)
    · next h => exact .renameNone fs tmp n h
  | openRead n =>
    simp only [execDet]
    split
    · next h => exact .openRead fs n _ h
    · next h => exact .openReadNone fs n h
  | read i => exact .read fs i

/-- a process alone, to its end, when nothing fails -/
def runDet (t : Nat) : FS → Prog α → Except PyErr α × FS
  | fs, .done r => (r, fs)
  | fs, .sys c k => runDet t (execDet t fs c).2 (k (execDet t fs c).1)

theorem runDet_run (F : Call → Prop) (t : Nat) (fs : FS) (p : Prog α) :
    Run ⟨false, F⟩ t fs p (runDet t fs p).1 (runDet t fs p).2 := by
  induction p generalizing fs with
  | done r => exact .done fs r
  | sys c k ih => exact .sys (execDet_exec F t fs c) (ih _ _)

inductive Act (Op : Type) where
  | tick (t : Nat)
  | start (i : Nat) (op : Op)
  /-- the next system call of process `i` -/
  | run (i : Nat)
  | finish (i : Nat)
  | crash (i : Nat)

variable {Op Ans : Type}

/-- the next system call of a process, if it has one and the schedule allows it -/
def runProc (test : Config Op Ans → Proc Op Ans → Bool) (cfg : Config Op Ans) (i : Nat) :
    Option (Proc Op Ans) → Config Op Ans
  | some ⟨op, .sys c k⟩ =>
    if test cfg ⟨op, .sys c k⟩ then
      { cfg.put i (some ⟨op, k (execDet cfg.clock cfg.fs c).1⟩) with fs := (execDet cfg.clock cfg.fs c).2 }
    else cfg
  | _ => cfg

def finishProc (cfg : Config Op Ans) (i : Nat) : Option (Proc Op Ans) → Config Op Ans
  | some ⟨op, .done r⟩ => { cfg.put i none with finished := (op, r) :: cfg.finished }
  | _ => cfg

/-- one action; an action that is not possible does nothing -/
def play (pr : Op → Prog Ans) (test : Config Op Ans → Proc Op Ans → Bool) (cfg : Config Op Ans) :
    Act Op → Config Op Ans
  | .tick t => if cfg.clock ≤ t then { cfg with clock := t } else cfg
  | .start i op => if (cfg.procs i).isNone then
      { cfg.put i (some ⟨op, pr op⟩) with started := op :: cfg.started } else cfg
  | .run i => runProc test cfg i (cfg.procs i)
  | .finish i => finishProc cfg i (cfg.procs i)
  | .crash i => cfg.put i none

theorem play_reachable {F : Call → Prop} {pr : Op → Prog Ans} {test : Config Op Ans → Proc Op Ans → Bool}
    {allowed : Config Op Ans → Proc Op Ans → Prop} (ht : ∀ cfg p, test cfg p = true → allowed cfg p)
    (acts : List (Act Op)) :
    Reachable ⟨false, F⟩ pr allowed (acts.foldl (play pr test) (Config.init Op Ans)) := by
  suffices h : ∀ cfg, Reachable ⟨false, F⟩ pr allowed cfg →
      Reachable ⟨false, F⟩ pr allowed (acts.foldl (play pr test) cfg) from h _ .init
  induction acts with
  | nil => exact fun cfg h => h
  | cons a r ih =>
    intro cfg h
    apply ih
    cases a with
    | tick t =>
      simp only [play]
      split
      · next hl => exact .step h (.tick cfg t hl)
      · exact h
    | start i op =>
      simp only [play]
      split
      · next hl => exact .step h (.start cfg i op (by simpa using hl))
      · exact h
    | run i =>
      simp only [play]
      cases hp : cfg.procs i with
      | none => exact h
      | some p =>
        obtain ⟨op, q⟩ := p
        cases q with
        | done r => exact h
        | sys c k =>
          simp only [runProc]
          split
          · next hl => exact .step h (.sys cfg i op c k _ _ hp (ht _ _ hl) (execDet_exec F _ _ c))
          · exact h
    | finish i =>
      simp only [play]
      cases hp : cfg.procs i with
      | none => exact h
      | some p =>
        obtain ⟨op, q⟩ := p
        cases q with
        | done r => exact .step h (.finish cfg i op r hp)
        | sys c k => exact h
    | crash i => exact .step h (.crash cfg i)

end Files
