import Verif.Spec.FileRaise
import Verif.Props.FileAssoc
import Verif.Props.Association
/-! # What the file store raises: the programs -/

namespace FileStore
open Py Files Store Association

/-- the reply is not one that can always come -/
def Failed : (c : Call) → c.Reply → Prop
  | .time, _ => False
  | .openExcl _, r => ∃ e, r = .error e ∧ e ≠ .eexist
  | .unlink _ _, r => ∃ e, r = .error e ∧ e ≠ .enoent
  | .openRead _, r => ∃ e, r = .error e ∧ e ≠ .enoent
  | .close, r => ∃ e, r = .error e
  | .listdir _, r => ∃ e, r = .error e
  | .mkstemp, r => ∃ e, r = .error e
  | .fdopen, r => ∃ e, r = .error e
  | .write _ _, r => ∃ e, r = .error e
  | .fsync _, r => ∃ e, r = .error e
  | .rename _ _, r => ∃ e, r = .error e
  | .read _, r => ∃ e, r = .error e

/-- only names with `N` are listed -/
def Listed (N : Str → Prop) : (c : Call) → c.Reply → Prop
  | .listdir .nonces, r => ∀ l, r = .ok l → ∀ n ∈ l, N n
  | _, _ => True

/-- only names with `N` are made, and only `X` is raised, if calls fail only when `f` -/
def Keeps (N : Str → Prop) (f : Prop) (X : PyErr → Prop) : Prog α → Prop
  | .done r => ∀ e, r = .error e → X e
  | .sys c k => (∀ n, c = .openExcl n → N n) ∧ ∀ r, (Failed c r → f) → Listed N c r → Keeps N f X (k r)

variable {N : Str → Prop} {f : Prop} {X : PyErr → Prop}

theorem keeps_ok (a : α) : Keeps N f X (.done (.ok a)) := fun _ h => by cases h
theorem keeps_pure (a : α) : Keeps N f X (pure a : Prog α) := fun _ h => by cases h
theorem keeps_raise {e : PyErr} (h : X e) : Keeps N f X (Prog.raise e : Prog α) := fun _ h' => by cases h'; exact h

theorem Keeps.bind {p : Prog α} {g : α → Prog β} (h : Keeps N f X p) (hg : ∀ a, Keeps N f X (g a)) :
    Keeps N f X (p.bind g) := by
  induction p with
  | done r =>
    cases r with
    | ok a => exact hg a
    | error e => exact fun e' he => h e' (by cases he; rfl)
  | sys c k ih => exact ⟨h.1, fun r hr hl => ih r (h.2 r hr hl)⟩

theorem Keeps.try {p : Prog α} {g : PyErr → Prog α} (h : Keeps N f X p) (hg : ∀ e, X e → Keeps N f X (g e)) :
    Keeps N f X (p.tryExcept g) := by
  induction p with
  | done r =>
    cases r with
    | ok a => exact keeps_ok a
    | error e => exact hg e (h e rfl)
  | sys c k ih => exact ⟨h.1, fun r hr hl => ih r (h.2 r hr hl)⟩

/-- a call that makes no nonce, whose reply decides -/
theorem keeps_sys {c : Call} {k : c.Reply → Prog α} (hc : ∀ n, c ≠ .openExcl n)
    (h : ∀ r, (Failed c r → f) → Listed N c r → Keeps N f X (k r)) : Keeps N f X (.sys c k) :=
  ⟨fun n hn => absurd hn (hc n), h⟩

theorem keeps_removeIfPresent (ho : f → X .osError) (d : Dir) (n : Str) : Keeps N f X (removeIfPresent d n) := by
  refine keeps_sys (by simp) fun r hr _ => ?_
  match r, hr with
  | .ok (), _ => exact keeps_ok _
  | .error .enoent, _ => exact keeps_ok _
  | .error .eexist, hr => exact fun e he => by cases he; exact ho (hr ⟨_, rfl, by simp⟩)
  | .error .other, hr => exact fun e he => by cases he; exact ho (hr ⟨_, rfl, by simp⟩)

theorem keeps_orRaise (ho : f → X .osError) {r : Except Errno α} (hr : (∃ e, r = .error e) → f) :
    Keeps N f X (Prog.orRaise r) := by
  cases r with
  | ok a => exact keeps_ok a
  | error e => exact fun e' he => by cases he; exact ho (hr ⟨e, rfl⟩)

theorem keeps_flush (ho : f → X .osError) (i : Nat) (b : Bytes) : Keeps N f X (flushAndClose i b) := by
  refine keeps_sys (by simp) fun w hw _ => keeps_sys (by simp) fun c hc _ => ?_
  exact Keeps.bind (keeps_orRaise ho hw) fun _ => keeps_orRaise ho hc

theorem keeps_store (ho : f → X .osError) (H : Sha1) (early : Nat) (url : Str) (a : Assoc)
    (h1 : ∀ e, a.serialize = .error e → X e) (h2 : ∀ e, assocName H url a.handle = .error e → X e) :
    Keeps N f X (storeAssociation H early url a) := by
  unfold storeAssociation
  split
  · next e he => exact keeps_raise (h1 e he)
  · next s hs =>
    split
    · next e he => exact keeps_raise (h2 e he)
    · next name hn =>
      refine Keeps.bind ?_ fun tmp => ?_
      · refine keeps_sys (by simp) fun r hr _ => ?_
        cases r with
        | error e => exact keeps_raise (ho (hr ⟨e, rfl⟩))
        | ok p =>
          refine keeps_sys (by simp) fun r hr _ => ?_
          cases r with
          | ok u => exact keeps_ok p
          | error e =>
            exact Keeps.bind (keeps_removeIfPresent ho _ _) fun _ => keeps_raise (ho (hr ⟨e, rfl⟩))
      · refine Keeps.try ?_ fun e he => Keeps.bind (keeps_removeIfPresent ho _ _) fun _ => keeps_raise he
        refine Keeps.bind ?_ fun _ => ?_
        · refine keeps_sys (by simp) fun r hr _ => ?_
          cases r with
          | error e => exact Keeps.bind (keeps_flush ho _ _) fun _ => keeps_raise (ho (hr ⟨e, rfl⟩))
          | ok u =>
            refine keeps_sys (by simp) fun r hr _ => ?_
            cases r with
            | error e => exact Keeps.bind (keeps_flush ho _ _) fun _ => keeps_raise (ho (hr ⟨e, rfl⟩))
            | ok u => exact keeps_flush ho _ _
        · have again : Keeps N f X (renameAgain tmp.1 name) :=
            keeps_sys (by simp) fun r hr _ => keeps_orRaise ho hr
          refine keeps_sys (by simp) fun r hr _ => ?_
          match r, hr with
          | .ok (), _ => exact keeps_ok _
          | .error .enoent, hr => exact keeps_raise (ho (hr ⟨_, rfl⟩))
          | .error .other, hr => exact keeps_raise (ho (hr ⟨_, rfl⟩))
          | .error .eexist, hr =>
            refine keeps_sys (by simp) fun r hr _ => ?_
            match r, hr with
            | .ok (), _ => exact again
            | .error .enoent, _ => exact again
            | .error .eexist, hr => exact keeps_raise (ho (hr ⟨_, rfl, by simp⟩))
            | .error .other, hr => exact keeps_raise (ho (hr ⟨_, rfl, by simp⟩))

theorem keeps_readAll (ho : f → X .osError) (i : Nat) : Keeps N f X (readAll i) := by
  refine keeps_sys (by simp) fun b hb _ => keeps_sys (by simp) fun c hc _ => ?_
  exact Keeps.bind (keeps_orRaise ho hc) fun _ => keeps_orRaise ho hb

theorem keeps_getOne (ho : f → X .osError) (D : ExtraDigits) (c : Clock) (n : Str) : Keeps N f X (getOne D c n) := by
  refine keeps_sys (by simp) fun r hr _ => ?_
  match r, hr with
  | .error .enoent, _ => exact keeps_pure _
  | .error .eexist, hr => exact keeps_raise (ho (hr ⟨_, rfl, by simp⟩))
  | .error .other, hr => exact keeps_raise (ho (hr ⟨_, rfl, by simp⟩))
  | .ok i, _ =>
    refine Keeps.bind (keeps_readAll ho i) fun b => ?_
    unfold checkRead
    split
    · next e he =>
      rw [if_pos (parseFile_error he)]
      exact Keeps.bind (keeps_removeIfPresent ho _ _) fun _ => keeps_pure _
    · refine keeps_sys (by simp) fun now _ _ => ?_
      split
      · exact Keeps.bind (keeps_removeIfPresent ho _ _) fun _ => keeps_pure _
      · exact keeps_pure _

theorem keeps_getMany (ho : f → X .osError) (D : ExtraDigits) (c : Clock) (l : List Str) :
    Keeps N f X (getMany D c l) := by
  induction l with
  | nil => exact keeps_pure _
  | cons n r ih => exact Keeps.bind (keeps_getOne ho D c n) fun _ => Keeps.bind ih fun _ => keeps_pure _

theorem keeps_get (ho : f → X .osError) (H : Sha1) (D : ExtraDigits) (c : Clock) (url : Str) (h : Option Str)
    (h1 : ∀ e, assocName H url (h.getD []) = .error e → X e) (h2 : h.getD [] = [] → X .typeError) :
    Keeps N f X (getAssociation H D c url h) := by
  unfold getAssociation
  split
  · next e he => exact keeps_raise (h1 e he)
  · split
    · next hh =>
      refine keeps_sys (by simp) fun r hr _ => ?_
      cases r with
      | error e => exact keeps_raise (ho (hr ⟨e, rfl⟩))
      | ok l =>
        refine Keeps.bind (keeps_getMany ho D c _) fun as e he => ?_
        rw [((SqlStore.latest_error _ _).1 he).1]
        exact h2 hh
    · exact keeps_getOne ho D c _

theorem keeps_remove (ho : f → X .osError) (H : Sha1) (D : ExtraDigits) (c : Clock) (url h : Str)
    (h1 : ∀ e, assocName H url h = .error e → X e) (h2 : h = [] → X .typeError) :
    Keeps N f X (removeAssociation H D c url h) := by
  refine Keeps.bind (keeps_get ho H D c url (some h) h1 h2) fun a => ?_
  split
  · exact keeps_pure _
  · split
    · next e he => exact keeps_raise (h1 e he)
    · exact Keeps.bind (keeps_removeIfPresent ho _ _) fun _ => keeps_pure _

theorem keeps_useNonce (ho : f → X .osError) (H : Sha1) (c : Clock) (url : Str) (t : Int) (salt : Str)
    (h1 : ∀ e, nonceName H url t salt = .error e → X e) (h2 : ∀ n, nonceName H url t salt = .ok n → N n) :
    Keeps N f X (useNonce H c url t salt) := by
  refine keeps_sys (by simp) fun now _ _ => ?_
  unfold useNonceAt
  split
  · exact keeps_pure _
  · split
    · next e he => exact keeps_raise (h1 e he)
    · next n hn =>
      refine ⟨fun m hm => ?_, fun r hr _ => ?_⟩
      · cases hm; exact h2 n hn
      · match r, hr with
        | .ok (), _ =>
          refine keeps_sys (by simp) fun r hr _ => ?_
          cases r with
          | ok u => exact keeps_ok _
          | error e => exact keeps_raise (ho (hr ⟨e, rfl⟩))
        | .error .eexist, _ => exact keeps_ok _
        | .error .enoent, hr => exact keeps_raise (ho (hr ⟨_, rfl, by simp⟩))
        | .error .other, hr => exact keeps_raise (ho (hr ⟨_, rfl, by simp⟩))

theorem keeps_cleanupAssociations (ho : f → X .osError) (D : ExtraDigits) (c : Clock) :
    Keeps N f X (cleanupAssociations D c) := by
  refine keeps_sys (by simp) fun r hr _ => ?_
  cases r with
  | error e => exact keeps_raise (ho (hr ⟨e, rfl⟩))
  | ok l =>
    refine Keeps.bind ?_ fun as => ?_
    · clear hr
      induction l with
      | nil => exact keeps_pure _
      | cons n r ih =>
        refine Keeps.bind ?_ fun _ => Keeps.bind (ih trivial) fun _ => keeps_pure _
        refine keeps_sys (by simp) fun r hr _ => ?_
        match r, hr with
        | .error .enoent, _ => exact keeps_pure _
        | .error .eexist, hr => exact keeps_raise (ho (hr ⟨_, rfl, by simp⟩))
        | .error .other, hr => exact keeps_raise (ho (hr ⟨_, rfl, by simp⟩))
        | .ok i, _ =>
          refine Keeps.bind (keeps_readAll ho i) fun b => ?_
          split
          · next e he =>
            rw [if_pos (parseFile_error he)]
            exact Keeps.bind (keeps_removeIfPresent ho _ _) fun _ => keeps_pure _
          · exact keeps_pure _
    · induction as with
      | nil => exact keeps_pure _
      | cons p r ih =>
        obtain ⟨n, a⟩ := p
        refine keeps_sys (by simp) fun now _ _ => ?_
        split
        · exact Keeps.bind (keeps_removeIfPresent ho _ _) fun _ => Keeps.bind ih fun _ => keeps_pure _
        · exact ih

theorem stampOf_error {D : ExtraDigits} {n : Str} {e : PyErr} (h : stampOf D n = .error e) : e = .valueError := by
  unfold stampOf parseHex at h
  simp only at h
  split at h
  · cases h
  · cases h; rfl

theorem keeps_cleanupNonces (ho : f → X .osError) (D : ExtraDigits) (c : Clock)
    (hv : (∃ n, N n ∧ ∀ i, stampOf D n ≠ .ok i) → X .valueError) : Keeps N f X (cleanupNonces D c) := by
  refine keeps_sys (by simp) fun r hr hl => ?_
  cases r with
  | error e => exact keeps_raise (ho (hr ⟨e, rfl⟩))
  | ok l =>
    refine keeps_sys (by simp) fun now _ _ => ?_
    replace hl : ∀ n ∈ l, N n := hl l rfl
    clear hr
    induction l with
    | nil => exact keeps_pure _
    | cons n r ih =>
      have ih := ih fun m hm => hl m (List.mem_cons_of_mem _ hm)
      unfold removeStale
      split
      · next e he =>
        rw [stampOf_error he]
        exact keeps_raise (hv ⟨n, hl n List.mem_cons_self, fun i hi => by rw [he] at hi; cases hi⟩)
      · split
        · exact Keeps.bind (keeps_removeIfPresent ho _ _) fun _ => Keeps.bind ih fun _ => keeps_pure _
        · exact ih

/-! ## errors of the names -/

theorem assocName_error {H : Sha1} {u h : Str} {e : PyErr} (he : assocName H u h = .error e) :
    e = .valueError ∧ ¬ HasScheme u := by
  refine ⟨?_, fun hs => ?_⟩
  · unfold assocName at he
    split at he
    · cases he; rfl
    · cases he
  · obtain ⟨n, hn⟩ := (Props.c22_total H u h).2 hs
    rw [hn] at he
    cases he

theorem nonceName_error {H : Sha1} {u : Str} {t : Int} {s : Str} {e : PyErr} (he : nonceName H u t s = .error e) :
    e = .valueError ∧ u ≠ [] ∧ ¬ HasScheme u := by
  unfold nonceName nonceParts at he
  split at he
  · next e' h =>
    cases he
    split at h
    · cases h
    · next hu =>
      split at h
      · next hc =>
        cases h
        have : assocName H u [] = .error .valueError := by unfold assocName; rw [hc]
        exact ⟨rfl, hu, (assocName_error this).2⟩
      · cases h
  · cases he

theorem serialize_error {a : Assoc} {e : PyErr} (he : a.serialize = .error e) : e = .kvFormError ∧ Unwritable a := by
  refine ⟨?_, ?_⟩
  · have line : ∀ k v e, KVForm.pairToLine true k v = .error e → e = .kvFormError := by
      intro k v e h
      unfold KVForm.pairToLine at h
      repeat' split at h
      all_goals cases h; try rfl
    have seq : ∀ l e, KVForm.seqToKV true l = .error e → e = .kvFormError := by
      intro l
      induction l with
      | nil => intro e h; cases h
      | cons p r ih =>
        intro e h
        unfold KVForm.seqToKV at h
        rcases bind_eq_error.1 h with h | ⟨x, -, h⟩
        · exact line _ _ _ h
        · rcases bind_eq_error.1 h with h | ⟨y, -, h⟩
          · exact ih _ h
          · cases h
    exact seq _ _ he
  · by_cases hu : Unwritable a
    · exact hu
    · exfalso
      have hv : ∀ v ∈ [a.handle, a.assocType], '\n' ∉ v ∧ strip v = v := fun v hm =>
        ⟨fun h => hu ⟨v, hm, .inl h⟩, Classical.byContradiction fun h => hu ⟨v, hm, .inr h⟩⟩
      obtain ⟨s, hs⟩ := (Props.c10_serialize_iff { a with assocType := t!"HMAC-SHA1" } (by simp [allAssociationTypes])).2 (hv _ (by simp))
      have h6 := hv a.assocType (by simp)
      have : ∃ s, a.serialize = .ok s := by
        rw [Assoc.serialize, KVForm.seqToKV_ok_iff]
        have hs := (KVForm.seqToKV_ok_iff _ _).1 ⟨s, hs⟩
        intro p hp
        simp only [List.mem_cons, List.not_mem_nil, or_false] at hp
        rcases hp with rfl | rfl | rfl | rfl | rfl | rfl
        · exact hs _ (by simp)
        · exact hs _ (by simp)
        · exact hs _ (by simp)
        · exact hs _ (by simp)
        · exact hs _ (by simp)
        · exact ⟨by simp, by simp, h6.1, fun _ => ⟨(by decide : strip t!"assoc_type" = t!"assoc_type"), h6.2⟩⟩
      obtain ⟨s, hs⟩ := this
      rw [hs] at he
      cases he

/-- every operation raises what it may -/
theorem keeps_program (W : World) (odd : Prop) (op : Op)
    (hN : ∀ u t s, op = .useNonce u t s → ∀ n, nonceName W.sha1 u t s = .ok n → N n)
    (ho : (∃ n, N n ∧ ∀ i, stampOf W.digits n ≠ .ok i) → odd) :
    Keeps N f (MayRaise f odd op) (program W op) := by
  cases op with
  | storeAssociation u a =>
    exact Keeps.bind (keeps_store (fun h => .inl ⟨rfl, h⟩) _ _ _ _ (fun e he => .inr (.inr (serialize_error he)))
      fun e he => .inr (.inl (assocName_error he))) fun _ => keeps_pure _
  | getAssociation u h =>
    exact Keeps.bind (keeps_get (fun h => .inl ⟨rfl, h⟩) _ _ _ _ _ (fun e he => .inr (.inl (assocName_error he)))
      fun he => .inr (.inr ⟨rfl, he⟩)) fun _ => keeps_pure _
  | removeAssociation u h =>
    exact Keeps.bind (keeps_remove (fun h => .inl ⟨rfl, h⟩) _ _ _ _ _ (fun e he => .inr (.inl (assocName_error he)))
      fun he => .inr (.inr ⟨rfl, he⟩)) fun _ => keeps_pure _
  | useNonce u t s =>
    exact Keeps.bind (keeps_useNonce (fun h => .inl ⟨rfl, h⟩) _ _ _ _ _ (fun e he => .inr (nonceName_error he))
      fun n hn => hN u t s rfl n hn) fun _ => keeps_pure _
  | cleanupNonces =>
    exact Keeps.bind (keeps_cleanupNonces (fun h => .inl ⟨rfl, h⟩) _ _ fun h => .inr ⟨rfl, ho h⟩) fun _ => keeps_pure _
  | cleanupAssociations => exact Keeps.bind (keeps_cleanupAssociations (fun h => ⟨rfl, h⟩) _ _) fun _ => keeps_pure _

end FileStore
