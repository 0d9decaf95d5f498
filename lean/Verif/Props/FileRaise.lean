import Verif.Lemmas.FileRaise
/-! # C87: what the file store raises -/

namespace Props
open Py Association Store Files FileStore

/-- without failing calls, on a system where renaming replaces, a call fails only if it renames a file that is gone -/
theorem exec_failed {E : Env} {t : Nat} {fs fs' : FS} {c : Call} {r : c.Reply} (hx : Exec E t fs c r fs')
    (hf : ∀ c, ¬ E.faulty c) (hw : E.win = false)
    (hr : ∀ tmp n, c = .rename tmp n → Dict.get? fs.temp tmp ≠ none) : ¬ Failed c r := by
  cases hx with
  | fault _ _ h _ => exact absurd h (hf _)
  | writePart _ _ _ h => exact absurd h (hf _)
  | renameExists tmp n h _ => rw [hw] at h; cases h
  | renameNone tmp n h => exact absurd h (hr tmp n rfl)
  | time => exact fun h => h
  | openExclExists n h => rintro ⟨e, he, hn⟩; cases he; exact hn rfl
  | unlinkNone d n h => rintro ⟨e, he, hn⟩; cases he; exact hn rfl
  | openReadNone n h => rintro ⟨e, he, hn⟩; cases he; exact hn rfl
  | openExcl n h => rintro ⟨e, he, -⟩; cases he
  | unlink d n h => rintro ⟨e, he, -⟩; cases he
  | openRead n i h => rintro ⟨e, he, -⟩; cases he
  | _ => rintro ⟨e, he⟩; cases he

theorem exec_listed {E : Env} {t : Nat} {fs fs' : FS} {c : Call} {r : c.Reply} (hx : Exec E t fs c r fs')
    {N : Str → Prop} (hN : ∀ n ∈ fs.nonces, N n) : Listed N c r := by
  cases c with
  | listdir d =>
    cases d with
    | nonces =>
      intro l hl n hn
      subst hl
      cases hx with
      | fault _ _ _ h => simp [Call.fault] at h
      | listdir _ _ h => exact hN n (h.mem_iff.1 hn)
    | assocs => trivial
    | temp => trivial
  | _ => trivial

theorem keeps_run {E : Env} {t : Nat} {N : Str → Prop} {X : PyErr → Prop} {fs fs' : FS} {p : Prog α}
    {out : Except PyErr α} (h : Run E t fs p out fs') (hk : Keeps N True X p) (hN : ∀ n ∈ fs.nonces, N n) :
    ∀ e, out = .error e → X e := by
  induction h with
  | done fs r => exact hk
  | sys hx _ ih =>
    refine ih (hk.2 _ (fun _ => trivial) (exec_listed hx hN)) fun n hn => ?_
    rcases exec_nonces hx with h | ⟨m, hc, -, h⟩ | ⟨m, hc, h⟩
    · exact hN n (h ▸ hn)
    · rw [h] at hn
      rcases List.mem_cons.1 hn with rfl | hn
      · exact hk.1 _ hc
      · exact hN n hn
    · rw [h] at hn
      exact hN n (List.mem_of_mem_erase hn)

/-- **C87** one operation, whatever is in the directories and whatever calls fail: what it raises is among the exceptions
    listed.  In particular no contents of an association file makes an operation raise. -/
theorem c87_alone (W : World) (E : Env) (now : Nat) (fs fs' : FS) (op : Op) (e : PyErr)
    (h : Run E now fs (program W op) (.error e) fs') :
    MayRaise True (∃ n ∈ fs.nonces, ∀ i, stampOf W.digits n ≠ .ok i) op e := by
  by_cases hop : ∃ u t s, op = .useNonce u t s
  · obtain ⟨u, t, s, rfl⟩ := hop
    exact keeps_run (N := fun _ => True) h (keeps_program W (∃ n, ∀ i, stampOf W.digits n ≠ .ok i) _
      (fun _ _ _ _ _ _ => trivial) fun ⟨n, _, h⟩ => ⟨n, h⟩) (fun _ _ => trivial) e rfl
  · exact keeps_run (N := (· ∈ fs.nonces)) h (keeps_program W _ op (fun u t s h => absurd ⟨u, t, s, h⟩ hop) fun h => h)
      (fun _ h => h) e rfl

/-- the invariant: what is raised so far, what processes may still raise, and where the nonce files come from -/
structure RInv (W : World) (E : Env) (S : List Op) (cfg : Config Op Answer) : Prop where
  names : ∀ n ∈ cfg.fs.nonces, ∃ u t s, Op.useNonce u t s ∈ S ∧ nonceName W.sha1 u t s = .ok n
  procs : ∀ i p, cfg.procs i = some p →
    Keeps (fun n => ∃ u t s, Op.useNonce u t s ∈ S ∧ nonceName W.sha1 u t s = .ok n)
      ((∃ c, E.faulty c) ∨ E.win = true)
      (MayRaise ((∃ c, E.faulty c) ∨ E.win = true) (∃ u t s, Op.useNonce u t s ∈ S ∧ t < 0) p.op) p.prog
  fin : ∀ op e, (op, Except.error e) ∈ cfg.finished →
    MayRaise ((∃ c, E.faulty c) ∨ E.win = true) (∃ u t s, Op.useNonce u t s ∈ S ∧ t < 0) op e

theorem rinv_reachable {W : World} {E : Env} {allowed : Config Op Answer → Proc Op Answer → Prop} {S : List Op}
    {cfg : Config Op Answer} (h : Reachable E (program W) allowed cfg) (hS : ∀ op ∈ cfg.started, op ∈ S) :
    RInv W E S cfg := by
  induction h with
  | init => exact ⟨fun n hn => (nomatch hn), fun i p hp => (nomatch hp), fun op e he => (nomatch he)⟩
  | @step a b hr hs ih =>
    have ih := ih fun op hop => hS op (started_step hs op hop)
    obtain ⟨gh, hg⟩ := cinv_reachable (S := (· ∈ a.started)) hr fun _ h => h
    cases hs with
    | tick t ht => exact ⟨ih.names, ih.procs, ih.fin⟩
    | start i op hi =>
      refine ⟨ih.names, fun j p hp => ?_, ih.fin⟩
      by_cases hj : j = i
      · subst hj
        have : p = ⟨op, program W op⟩ := by simpa [Config.put] using hp.symm
        subst this
        refine keeps_program W _ op (fun u t s he n hn => ⟨u, t, s, ?_, hn⟩) ?_
        · subst he; exact hS _ List.mem_cons_self
        · rintro ⟨n, ⟨u, t, s, hm, hn⟩, hi⟩
          refine ⟨u, t, s, hm, ?_⟩
          by_cases ht : 0 ≤ t
          · exact absurd ((stampOf_name W.digits hn).1 ht) (hi t)
          · omega
      · exact ih.procs j p (by simpa [Config.put, hj] using hp)
    | sys i op c k r fs' hi ha hx =>
      have hk := ih.procs i _ hi
      refine ⟨fun n hn => ?_, fun j p hp => ?_, ih.fin⟩
      · rcases exec_nonces hx with h | ⟨m, hc, -, h⟩ | ⟨m, hc, h⟩
        · exact ih.names n (h ▸ hn)
        · rw [h] at hn
          rcases List.mem_cons.1 hn with rfl | hn
          · exact hk.1 _ hc
          · exact ih.names n hn
        · rw [h] at hn
          exact ih.names n (List.mem_of_mem_erase hn)
      · by_cases hj : j = i
        · subst hj
          have : p = ⟨op, k r⟩ := by simpa [Config.put] using hp.symm
          subst this
          refine hk.2 r (fun hfail => ?_) (exec_listed hx ih.names)
          refine Classical.byContradiction fun hno => ?_
          rw [not_or] at hno
          refine exec_failed hx (fun c hc => hno.1 ⟨c, hc⟩) (by simpa using hno.2) (fun tmp n hc => ?_) hfail
          subst hc
          obtain ⟨-, hn, -⟩ := hg.procs j _ hi
          obtain ⟨-, i', b, hh, -⟩ := hn
          rw [((hg.files.fits j).held _ _ _ hh).1]
          simp
        · exact ih.procs j p (by simpa [Config.put, hj] using hp)
    | finish i op r hi =>
      refine ⟨ih.names, fun j p hp => ?_, fun op' e he => ?_⟩
      · by_cases hj : j = i
        · subst hj; simp [Config.put] at hp
        · exact ih.procs j p (by simpa [Config.put, hj] using hp)
      · rcases List.mem_cons.1 he with he | he
        · cases he
          exact ih.procs i _ hi e rfl
        · exact ih.fin op' e he
    | crash i =>
      refine ⟨ih.names, fun j p hp => ?_, ih.fin⟩
      by_cases hj : j = i
      · subst hj; simp [Config.put] at hp
      · exact ih.procs j p (by simpa [Config.put, hj] using hp)

/-- **C87** any number of processes, with any failures and crashes: what an operation raises is among the exceptions listed,
    `OSError` only if calls of the system can fail (or the system is Windows), and `ValueError` from `cleanupNonces` only if
    somebody tried to use a nonce from before 1970. -/
theorem c87_shared (W : World) (E : Env) (allowed : Config Op Answer → Proc Op Answer → Prop)
    (cfg : Config Op Answer) (h : Reachable E (program W) allowed cfg) (op : Op) (e : PyErr)
    (hf : (op, .error e) ∈ cfg.finished) :
    MayRaise ((∃ c, E.faulty c) ∨ E.win = true) (∃ u t s, Op.useNonce u t s ∈ cfg.started ∧ t < 0) op e :=
  (rinv_reachable h fun _ h => h).fin op e hf

/-- **C87** so it does: a nonce of one second before 1970, used at that time, makes every later `cleanupNonces` raise. -/
theorem c87_before_1970 : ∃ cfg, Reachable ⟨false, fun _ => False⟩ (program world0) (fun _ _ => True) cfg ∧
    cfg.finished.reverse = [(.useNonce t!"http://op/" (-1) t!"s", .ok (.bool true)), (.cleanupNonces, .error .valueError),
      (.cleanupNonces, .error .valueError)] :=
  ⟨_, play_reachable (test := fun _ _ => true) (fun _ _ _ => trivial)
    [.start 1 (.useNonce t!"http://op/" (-1) t!"s"), .run 1, .run 1, .run 1, .finish 1,
     .start 3 .cleanupNonces, .run 3, .run 3, .finish 3, .tick 18006000, .start 3 .cleanupNonces, .run 3, .run 3, .finish 3],
    by decide +kernel⟩

/-- every kind of exception occurs: a URL without `://`, a handle that ends in a space, two associations of one second -/
example : ∃ cfg, Reachable ⟨false, fun _ => False⟩ (program world0) (fun _ _ => True) cfg ∧
    cfg.finished.reverse = [(.getAssociation t!"op" none, .error .valueError),
      (.storeAssociation t!"http://op/" (fassoc t!"h " 0 10), .error .kvFormError),
      (.useNonce t!"op" 5 t!"s", .error .valueError), (.useNonce [] 5 t!"s", .ok (.bool true))] :=
  ⟨_, play_reachable (test := fun _ _ => true) (fun _ _ _ => trivial)
    [.start 1 (.getAssociation t!"op" none), .finish 1,
     .start 2 (.storeAssociation t!"http://op/" (fassoc t!"h " 0 10)), .finish 2,
     .start 1 (.useNonce t!"op" 5 t!"s"), .run 1, .finish 1,
     .start 1 (.useNonce [] 5 t!"s"), .run 1, .run 1, .run 1, .finish 1],
    by decide +kernel⟩

end Props
