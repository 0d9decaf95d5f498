import Verif.Model.FileStore
/-! # What the file store is supposed to do

Notions for the statements about association files. -/

namespace FileStore
open Py Files Store Association

/-- what a reader finds under each name -/
def view (fs : FS) (n : Str) : Option Bytes := (Dict.get? fs.assocs n).map fs.data

/-- A file system as any execution leaves it: directories without double entries, numbers of files below the
    next one, one name per temporary file. -/
structure Sane (fs : FS) : Prop where
  wfT : Dict.WF fs.temp
  wfA : Dict.WF fs.assocs
  ltT : ∀ n i, Dict.get? fs.temp n = some i → i < fs.next
  ltA : ∀ n i, Dict.get? fs.assocs n = some i → i < fs.next
  inj : ∀ n m i, Dict.get? fs.temp n = some i → Dict.get? fs.temp m = some i → n = m

/-- The executions in which no process is held up for long, for nonces of the times `T`: while a process is in the middle
    of `useNonce` with such a time, the clock does not move out of the five hours before and after it.  Nothing else is
    asked of the schedule. -/
inductive Prompt (W : World) (E : Env) (T : Int → Prop) : Config Op Answer → Prop where
  | init : Prompt W E T (Config.init Op Answer)
  | step {cfg cfg' : Config Op Answer} (h : Prompt W E T cfg) (h' : Step E (program W) (fun _ _ => True) cfg cfg')
      (hw : ∀ i p url t salt, T t → cfg.procs i = some p → p.op = .useNonce url t salt →
        W.clock.within 18000 cfg.clock t → W.clock.within 18000 cfg'.clock t) : Prompt W E T cfg'

/-- the texts of a history are told apart by the hash function -/
def NoCollision (H : Sha1) (T : Str → Prop) : Prop :=
  (∀ x, (H x).length = 20) ∧ ∀ x y, T x → T y → H (Utf8.encode x) = H (Utf8.encode y) → x = y

/-- the operations considered -/
def GoodOp (U T : Str → Prop) : Op → Prop
  | .storeAssociation u a => U u ∧ T a.handle ∧ a.handle ≠ [] ∧ a.assocType ∈ allAssociationTypes
  | .removeAssociation u h => U u ∧ T h
  | _ => True

/-- a URL as the store expects it: the part before `://` has no dash, slash or colon in it -/
def PlainUrl (u : Str) : Prop := ∃ p r, u = p ++ t!"://" ++ r ∧ '-' ∉ p ∧ '/' ∉ p ∧ ':' ∉ p

end FileStore
