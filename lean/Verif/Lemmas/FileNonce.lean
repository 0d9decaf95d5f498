import Verif.Lemmas.FileNames
/-! # Nonces in the file store under concurrency -/

namespace FileStore
open Py Files Store Association

theorem outside_iff (c : Clock) (now : Nat) (t : Int) :
    outside c now t = true ↔ ¬ c.within Nonce.SKEW now t := by
  have : 0 ≤ Nonce.SKEW * (c.tick : Int) := Int.mul_nonneg (by decide) (by omega)
  simp only [outside, Clock.within, decide_eq_true_eq]
  omega

/-- the time in the name is not in the far future of `t` -/
def Seen (X : ExtraDigits) (c : Clock) (t : Nat) (n : Str) : Prop :=
  ∀ i, stampOf X n = .ok i → i * c.tick ≤ t + Nonce.SKEW * c.tick

/-- the time in the name is further back from `t` than the window -/
def Gone (X : ExtraDigits) (c : Clock) (t : Nat) (n : Str) : Prop :=
  ∃ i, stampOf X n = .ok i ∧ i * c.tick + Nonce.SKEW * c.tick < t

theorem Seen.mono {X : ExtraDigits} {c : Clock} {t t' : Nat} {n : Str} (h : Seen X c t n) (ht : t ≤ t') :
    Seen X c t' n := fun i hi => by have := h i hi; omega

theorem Gone.mono {X : ExtraDigits} {c : Clock} {t t' : Nat} {n : Str} (h : Gone X c t n) (ht : t ≤ t') :
    Gone X c t' n := by obtain ⟨i, h1, h2⟩ := h; exact ⟨i, h1, by omega⟩


/-! ## What programs may do to the nonce directory -/

/-- may be done at time `t`: remove only names `G`, create only names `S` -/
def Need (S G : Nat → Str → Prop) (t : Nat) : Call → Prop
  | .unlink .nonces n => G t n
  | .openExcl n => S t n
  | _ => True

/-- possible replies at time `t` when all nonce names are `S` -/
def Poss (S : Nat → Str → Prop) (t : Nat) : (c : Call) → c.Reply → Prop
  | .time, r => r = t
  | .listdir .nonces, r => ∀ l, r = .ok l → ∀ n ∈ l, S t n
  | _, _ => True

/-- everything a program may do from time `t` on -/
def Good (S G : Nat → Str → Prop) : Nat → Prog α → Prop
  | _, .done _ => True
  | t, .sys c k => (∀ t', t ≤ t' → Need S G t' c) ∧ ∀ t', t ≤ t' → ∀ r, Poss S t' c r → Good S G t' (k r)

theorem Good.mono {S G : Nat → Str → Prop} {t t' : Nat} {p : Prog α} (h : Good S G t p) (ht : t ≤ t') :
    Good S G t' p := by
  cases p with
  | done r => trivial
  | sys c k => exact ⟨fun t2 h2 => h.1 t2 (by omega), fun t2 h2 => h.2 t2 (by omega)⟩

theorem Good.bind {S G : Nat → Str → Prop} {t : Nat} {p : Prog α} {f : α → Prog β} (h : Good S G t p)
    (hf : ∀ a t', t ≤ t' → Good S G t' (f a)) : Good S G t (p.bind f) := by
  induction p generalizing t with
  | done r =>
    cases r with
    | ok a => exact hf a t (Nat.le_refl _)
    | error e => trivial
  | sys c k ih =>
    exact ⟨h.1, fun t' ht' r hr => ih r (h.2 t' ht' r hr) fun a t2 h2 => hf a t2 (by omega)⟩

theorem Good.tryExcept {S G : Nat → Str → Prop} {t : Nat} {p : Prog α} {f : PyErr → Prog α}
    (h : Good S G t p) (hf : ∀ a t', t ≤ t' → Good S G t' (f a)) : Good S G t (p.tryExcept f) := by
  induction p generalizing t with
  | done r =>
    cases r with
    | ok a => trivial
    | error e => exact hf e t (Nat.le_refl _)
  | sys c k ih =>
    exact ⟨h.1, fun t' ht' r hr => ih r (h.2 t' ht' r hr) fun a t2 h2 => hf a t2 (by omega)⟩

/-- a call that leaves the nonce directory alone -/
def Neutral : Call → Prop
  | .unlink .nonces _ | .openExcl _ => False
  | _ => True

theorem Good.sys {S G : Nat → Str → Prop} {t : Nat} {c : Call} {k : c.Reply → Prog α} (hc : Neutral c)
    (h : ∀ r t', t ≤ t' → Good S G t' (k r)) : Good S G t (.sys c k) := by
  refine ⟨fun t' _ => ?_, fun t' ht r _ => h r t' ht⟩
  unfold Need
  split
  · exact absurd hc (by simp [Neutral])
  · exact absurd hc (by simp [Neutral])
  · trivial

theorem good_orRaise {S G : Nat → Str → Prop} {t : Nat} (r : Except Errno α) :
    Good S G t (Prog.orRaise r) := by cases r <;> trivial

theorem good_pure {S G : Nat → Str → Prop} {t : Nat} (a : α) : Good S G t (pure a : Prog α) := trivial
theorem good_raise {S G : Nat → Str → Prop} {t : Nat} (e : PyErr) : Good S G t (Prog.raise e : Prog α) := trivial

theorem good_removeIfPresent {S G : Nat → Str → Prop} {t : Nat} {d : Dir} (n : Str) (hd : d ≠ .nonces) :
    Good S G t (removeIfPresent d n) := by
  apply Good.sys
  · cases d <;> simp_all [Neutral]
  · intro r t' _; cases r with
    | ok u => trivial
    | error e => cases e <;> trivial

theorem good_flush {S G : Nat → Str → Prop} {t : Nat} (i : Nat) (b : Bytes) :
    Good S G t (flushAndClose i b) :=
  Good.sys trivial fun r _ _ => Good.sys trivial fun r' _ _ =>
    Good.bind (good_orRaise r) fun _ _ _ => good_orRaise r'

theorem good_writeTemp {S G : Nat → Str → Prop} {t : Nat} (e i : Nat) (b : Bytes) :
    Good S G t (writeTemp e i b) := by
  refine Good.sys trivial fun r _ _ => ?_
  cases r with
  | ok u =>
    refine Good.sys trivial fun r _ _ => ?_
    cases r with
    | ok u => exact good_flush _ _
    | error e => exact Good.bind (good_flush _ _) fun _ _ _ => good_raise _
  | error e => exact Good.bind (good_flush _ _) fun _ _ _ => good_raise _

theorem good_renameInto {S G : Nat → Str → Prop} {t : Nat} (a b : Str) : Good S G t (renameInto a b) := by
  have h1 : ∀ t, Good S G t (renameAgain a b) := fun t => Good.sys trivial fun r _ _ => good_orRaise r
  refine Good.sys trivial fun r _ _ => ?_
  cases r with
  | ok u => trivial
  | error e =>
    cases e with
    | eexist =>
      refine Good.sys trivial fun r _ _ => ?_
      cases r with
      | ok u => exact h1 _
      | error e => cases e <;> first | exact h1 _ | trivial
    | _ => trivial

theorem good_store {S G : Nat → Str → Prop} {t : Nat} (H : Sha1) (e : Nat) (u : Str) (a : Assoc) :
    Good S G t (storeAssociation H e u a) := by
  unfold storeAssociation
  split
  · trivial
  · split
    · trivial
    · refine Good.bind (p := mktemp) (Good.sys trivial fun r _ _ => ?_) fun tmp _ _ => ?_
      · cases r with
        | error e => trivial
        | ok p =>
          refine Good.sys trivial fun r _ _ => ?_
          cases r with
          | ok u => trivial
          | error e => exact Good.bind (good_removeIfPresent _ (by simp)) fun _ _ _ => good_raise _
      · exact Good.tryExcept (Good.bind (good_writeTemp _ _ _) fun _ _ _ => good_renameInto _ _) fun _ _ _ =>
          Good.bind (good_removeIfPresent _ (by simp)) fun _ _ _ => good_raise _

theorem good_readAll {S G : Nat → Str → Prop} {t : Nat} (i : Nat) : Good S G t (readAll i) :=
  Good.sys trivial fun _ _ _ => Good.sys trivial fun _ _ _ =>
    Good.bind (good_orRaise _) fun _ _ _ => good_orRaise _

theorem good_getOne {S G : Nat → Str → Prop} {t : Nat} (X : ExtraDigits) (c : Clock) (n : Str) :
    Good S G t (getOne X c n) := by
  refine Good.sys trivial fun r _ _ => ?_
  cases r with
  | error e => cases e <;> trivial
  | ok i =>
    refine Good.bind (good_readAll _) fun b _ _ => ?_
    unfold checkRead
    split
    · split
      · exact Good.bind (good_removeIfPresent _ (by simp)) fun _ _ _ => good_pure _
      · trivial
    · refine Good.sys trivial fun r _ _ => ?_
      split
      · exact Good.bind (good_removeIfPresent _ (by simp)) fun _ _ _ => good_pure _
      · trivial

theorem good_getMany {S G : Nat → Str → Prop} {t : Nat} (X : ExtraDigits) (c : Clock) (l : List Str) :
    Good S G t (getMany X c l) := by
  induction l generalizing t with
  | nil => trivial
  | cons n r ih =>
    exact Good.bind (good_getOne X c n) fun _ _ _ => Good.bind ih fun _ _ _ => good_pure _

theorem good_get {S G : Nat → Str → Prop} {t : Nat} (H : Sha1) (X : ExtraDigits) (c : Clock) (u : Str)
    (h : Option Str) : Good S G t (getAssociation H X c u h) := by
  unfold getAssociation
  split
  · trivial
  · split
    · refine Good.sys trivial fun r _ _ => ?_
      cases r with
      | error e => trivial
      | ok l => exact Good.bind (good_getMany X c _) fun _ _ _ => trivial
    · exact good_getOne X c _

theorem good_remove {S G : Nat → Str → Prop} {t : Nat} (H : Sha1) (X : ExtraDigits) (c : Clock) (u h : Str) :
    Good S G t (removeAssociation H X c u h) := by
  refine Good.bind (good_get H X c u _) fun a _ _ => ?_
  split
  · trivial
  · split
    · trivial
    · exact Good.bind (good_removeIfPresent _ (by simp)) fun _ _ _ => good_pure _

theorem good_cleanupAssocs {S G : Nat → Str → Prop} {t : Nat} (X : ExtraDigits) (c : Clock) :
    Good S G t (cleanupAssociations X c) := by
  refine Good.sys trivial fun r _ _ => ?_
  cases r with
  | error e => trivial
  | ok l =>
    refine Good.bind ?_ fun as t' _ => ?_
    · rename_i t1 _
      generalize t1 = t2
      induction l generalizing t2 with
      | nil => trivial
      | cons n r ih =>
        refine Good.bind ?_ fun _ _ _ => Good.bind (ih _) fun _ _ _ => good_pure _
        refine Good.sys trivial fun r _ _ => ?_
        cases r with
        | error e => cases e <;> trivial
        | ok i =>
          refine Good.bind (good_readAll _) fun b _ _ => ?_
          split
          · split
            · exact Good.bind (good_removeIfPresent _ (by simp)) fun _ _ _ => good_pure _
            · trivial
          · trivial
    · generalize t' = t2
      induction as generalizing t2 with
      | nil => trivial
      | cons p r ih =>
        obtain ⟨n, a⟩ := p
        refine Good.sys trivial fun now _ _ => ?_
        split
        · exact Good.bind (good_removeIfPresent _ (by simp)) fun _ _ _ =>
            Good.bind (ih _) fun _ _ _ => good_pure _
        · exact ih _

theorem good_removeStale {X : ExtraDigits} {c : Clock} {now t : Nat} (ht : now ≤ t) (l : List Str)
    (hl : ∀ n ∈ l, Seen X c now n) : Good (Seen X c) (Gone X c) t (removeStale X c now l) := by
  induction l generalizing t with
  | nil => trivial
  | cons n r ih =>
    have ih' := fun t (ht : now ≤ t) => ih (t := t) ht fun m hm => hl m (List.mem_cons_of_mem _ hm)
    unfold removeStale
    split
    · trivial
    · next i hi =>
      split
      · next ho =>
        have hg : Gone X c now n := by
          refine ⟨i, hi, ?_⟩
          have h1 := hl n (List.mem_cons_self) i hi
          rw [outside_iff] at ho
          unfold Clock.within at ho
          omega
        refine ⟨fun t' ht' => hg.mono (by omega), fun t' ht' rep _ => ?_⟩
        refine Good.bind (p := removed rep) ?_ fun _ t2 h2 =>
          Good.bind (ih' _ (by omega)) fun _ _ _ => good_pure _
        cases rep with
        | ok u => trivial
        | error e => cases e <;> trivial
      · exact ih' t ht

theorem good_cleanupNonces {X : ExtraDigits} {c : Clock} {t : Nat} :
    Good (Seen X c) (Gone X c) t (cleanupNonces X c) := by
  refine ⟨fun _ _ => trivial, fun t1 h1 r hr => ?_⟩
  cases r with
  | error e => trivial
  | ok l =>
    refine ⟨fun _ _ => trivial, fun t2 h2 now hnow => ?_⟩
    have : now = t2 := hnow
    subst this
    exact good_removeStale (Nat.le_refl _) l fun n hn => (hr l rfl n hn).mono h2

theorem good_useNonce {X : ExtraDigits} {G : Nat → Str → Prop} {c : Clock} {t0 : Nat} (H : Sha1) (u : Str)
    (t : Int) (s : Str) : Good (Seen X c) G t0 (useNonce H c u t s) := by
  refine ⟨fun _ _ => trivial, fun t1 h1 now hnow => ?_⟩
  have : now = t1 := hnow
  subst this
  unfold useNonceAt
  split
  · trivial
  · next ho =>
    rw [outside_iff, Classical.not_not] at ho
    split
    · trivial
    · next n hn =>
      refine ⟨fun t2 h2 i hi => ?_, fun t2 h2 r _ => ?_⟩
      · have := (stampOf_name X hn).2 i hi
        subst this
        have := ho.2
        omega
      · cases r with
        | ok u =>
          refine Good.sys trivial fun r _ _ => ?_
          cases r <;> trivial
        | error e => cases e <;> trivial

/-- every operation removes only what is gone; all but `cleanupNonces` remove nothing -/
theorem good_program (W : World) (op : Op) (t : Nat) :
    Good (Seen W.digits W.clock) (Gone W.digits W.clock) t (program W op) := by
  cases op with
  | storeAssociation u a => exact Good.bind (good_store _ _ _ _) fun _ _ _ => good_pure _
  | getAssociation u h => exact Good.bind (good_get _ _ _ _ _) fun _ _ _ => good_pure _
  | removeAssociation u h => exact Good.bind (good_remove _ _ _ _ _) fun _ _ _ => good_pure _
  | useNonce u t s => exact Good.bind (good_useNonce _ _ _ _) fun _ _ _ => good_pure _
  | cleanupNonces => exact Good.bind good_cleanupNonces fun _ _ _ => good_pure _
  | cleanupAssociations => exact Good.bind (good_cleanupAssocs _ _) fun _ _ _ => good_pure _

theorem good_program' (W : World) (op : Op) (t : Nat) (h : op ≠ .cleanupNonces) :
    Good (Seen W.digits W.clock) (fun _ _ => False) t (program W op) := by
  cases op with
  | storeAssociation u a => exact Good.bind (good_store _ _ _ _) fun _ _ _ => good_pure _
  | getAssociation u h => exact Good.bind (good_get _ _ _ _ _) fun _ _ _ => good_pure _
  | removeAssociation u h => exact Good.bind (good_remove _ _ _ _ _) fun _ _ _ => good_pure _
  | useNonce u t s => exact Good.bind (good_useNonce _ _ _ _) fun _ _ _ => good_pure _
  | cleanupNonces => exact absurd rfl h
  | cleanupAssociations => exact Good.bind (good_cleanupAssocs _ _) fun _ _ _ => good_pure _

/-! ## The states of a `useNonce` process -/

def ansBool (b : Bool) : Prog Answer := .done (.ok (.bool b))

/-- about to create the file -/
def creating (n : Str) : Prog Answer := .sys (.openExcl n) fun r => (nonceOpened r).bind ansBool

/-- the file is created -/
def created : Prog Answer := .sys .close fun r => (nonceMade r).bind ansBool

theorem program_useNonce (W : World) (u : Str) (t : Int) (s : Str) :
    program W (.useNonce u t s) =
      .sys .time fun now => (useNonceAt W.sha1 W.clock u t s now).bind ansBool := rfl

/-- the states a process running `useNonce(u, t, s)` can be in -/
def UseState (W : World) (u : Str) (t : Int) (s : Str) (p : Prog Answer) : Prop :=
  p = program W (.useNonce u t s) ∨
  (∃ n, nonceName W.sha1 u t s = .ok n ∧ p = creating n) ∨
  (∃ n, nonceName W.sha1 u t s = .ok n ∧ p = created) ∨
  (∃ e, p = .done (.error e)) ∨ p = .done (.ok (.bool false)) ∨
  (∃ n, nonceName W.sha1 u t s = .ok n ∧ p = .done (.ok (.bool true)))

/-- in these it has the nonce -/
def Claim (p : Prog Answer) : Prop := p = created ∨ p = .done (.ok (.bool true))

theorem not_claim_program (W : World) (u : Str) (t : Int) (s : Str) :
    ¬ Claim (program W (.useNonce u t s)) := by
  rw [program_useNonce]
  rintro (h | h)
  · unfold created at h
    injection h with h1
    exact absurd h1 (by simp)
  · cases h

/-- One call of such a process: either it does not concern the nonce directory and earns no claim, or it
    is the creation of the nonce's file. -/
theorem useState_step {W : World} {u : Str} {t : Int} {s : Str} {c : Call} {k : c.Reply → Prog Answer}
    (h : UseState W u t s (.sys c k)) {E : Env} {now : Nat} {fs fs' : FS} {r : c.Reply}
    (hx : Exec E now fs c r fs') :
    UseState W u t s (k r) ∧
      ((fs'.nonces = fs.nonces ∧ (Claim (k r) → Claim (.sys c k))) ∨
       (∃ n, nonceName W.sha1 u t s = .ok n ∧ c = .openExcl n ∧ n ∉ fs.nonces ∧ fs'.nonces = n :: fs.nonces)) := by
  rcases h with h | ⟨n, hn, h⟩ | ⟨n, hn, h⟩ | ⟨e, h⟩ | h | ⟨n, hn, h⟩
  · rw [program_useNonce] at h
    cases h
    have hf : fs' = fs := by
      cases hx with
      | fault _ _ _ h => simp [Call.fault] at h
      | time => rfl
    have key : UseState W u t s ((useNonceAt W.sha1 W.clock u t s r).bind ansBool) ∧
        ¬ Claim ((useNonceAt W.sha1 W.clock u t s r).bind ansBool) := by
      unfold useNonceAt
      split
      · refine ⟨.inr (.inr (.inr (.inr (.inl rfl)))), ?_⟩
        rintro (h | h)
        · cases h
        · have := Prog.done.inj h; simp at this
      · split
        · refine ⟨.inr (.inr (.inr (.inl ⟨_, rfl⟩))), ?_⟩
          rintro (h | h)
          · cases h
          · have := Prog.done.inj h; simp at this
        · next n hn =>
          refine ⟨.inr (.inl ⟨n, hn, rfl⟩), ?_⟩
          rintro (h | h)
          · change creating n = created at h
            unfold creating created at h
            injection h with h1
            exact absurd h1 (by simp)
          · cases h
    exact ⟨key.1, .inl ⟨by rw [hf], fun h => absurd h key.2⟩⟩
  · unfold creating at h
    cases h
    cases r with
    | ok x =>
      refine ⟨.inr (.inr (.inl ⟨n, hn, rfl⟩)), .inr ⟨n, hn, rfl, ?_⟩⟩
      cases hx with
      | fault _ _ _ h => simp [Call.fault] at h
      | openExcl _ h => exact ⟨h, rfl⟩
    | error e =>
      have hf : fs' = fs := by
        cases hx with
        | fault _ _ _ h => rfl
        | openExclExists _ h => rfl
      cases e with
      | eexist =>
        refine ⟨.inr (.inr (.inr (.inr (.inl rfl)))), .inl ⟨by rw [hf], ?_⟩⟩
        rintro (h | h)
        · cases h
        · have := Prog.done.inj h; simp at this
      | _ =>
        refine ⟨.inr (.inr (.inr (.inl ⟨_, rfl⟩))), .inl ⟨by rw [hf], ?_⟩⟩
        rintro (h | h)
        · cases h
        · have := Prog.done.inj h; simp at this
  · unfold created at h
    cases h
    have hf : fs' = fs := by
      cases hx with
      | fault _ _ _ h => rfl
      | close => rfl
    refine ⟨?_, .inl ⟨by rw [hf], fun _ => .inl rfl⟩⟩
    cases r with
    | ok x => exact .inr (.inr (.inr (.inr (.inr ⟨n, hn, rfl⟩))))
    | error e => exact .inr (.inr (.inr (.inl ⟨_, rfl⟩)))
  · cases h
  · cases h
  · cases h

/-! ## The invariant -/

/-- the observation that a call `useNonce(u, t, s)` answered `True` -/
def accepted (u : Str) (t : Int) (s : Str) : Op × Except PyErr Answer := (.useNonce u t s, .ok (.bool true))

structure NInv (W : World) (T : Int → Prop) (G : Nat → Str → Prop) (cfg : Config Op Answer) : Prop where
  seen : ∀ n ∈ cfg.fs.nonces, Seen W.digits W.clock cfg.clock n
  good : ∀ i p, cfg.procs i = some p → Good (Seen W.digits W.clock) G cfg.clock p.prog
  st : ∀ i u t s p, cfg.procs i = some ⟨.useNonce u t s, p⟩ → UseState W u t s p
  claimP : ∀ i u t s p, cfg.procs i = some ⟨.useNonce u t s, p⟩ → Claim p →
    ∃ n, nonceName W.sha1 u t s = .ok n ∧ (n ∈ cfg.fs.nonces ∨ G cfg.clock n)
  claimF : ∀ u t s, accepted u t s ∈ cfg.finished →
    ∃ n, nonceName W.sha1 u t s = .ok n ∧ (n ∈ cfg.fs.nonces ∨ G cfg.clock n)
  uniqPP : ∀ i j u t s p q, T t → cfg.procs i = some ⟨.useNonce u t s, p⟩ →
    cfg.procs j = some ⟨.useNonce u t s, q⟩ → Claim p → Claim q → i = j
  uniqPF : ∀ i u t s p, T t → cfg.procs i = some ⟨.useNonce u t s, p⟩ → Claim p → accepted u t s ∉ cfg.finished
  uniqF : ∀ u t s, T t → cfg.finished.count (accepted u t s) ≤ 1

/-- the nonce directory after a call -/
theorem exec_nonces {E : Env} {now : Nat} {fs fs' : FS} {c : Call} {r : c.Reply}
    (hx : Exec E now fs c r fs') :
    fs'.nonces = fs.nonces ∨ (∃ n, c = .openExcl n ∧ n ∉ fs.nonces ∧ fs'.nonces = n :: fs.nonces) ∨
      (∃ n, c = .unlink .nonces n ∧ fs'.nonces = fs.nonces.erase n) := by
  cases hx with
  | openExcl n h => exact .inr (.inl ⟨n, rfl, h, rfl⟩)
  | unlink d n h => cases d <;> first | exact .inl rfl | exact .inr (.inr ⟨n, rfl, rfl⟩)
  | _ => exact .inl rfl

theorem exec_poss {W : World} {E : Env} {now : Nat} {fs fs' : FS} {c : Call} {r : c.Reply}
    (hx : Exec E now fs c r fs') (hs : ∀ n ∈ fs.nonces, Seen W.digits W.clock now n) :
    Poss (Seen W.digits W.clock) now c r := by
  cases hx with
  | time => rfl
  | listdir d l h =>
    cases d with
    | nonces =>
      intro l' hl n hn
      cases hl
      exact hs n (h.mem_iff.1 hn)
    | _ => trivial
  | fault _ _ _ h =>
    unfold Poss
    split
    · simp [Call.fault] at h
    · intro l hl n hn; subst hl; simp [Call.fault] at h
    · trivial
  | _ => trivial

theorem put_self {cfg : Config Op Answer} {i : Nat} {p : Option (Proc Op Answer)} :
    (cfg.put i p).procs i = p := by simp [Config.put]

theorem put_ne {cfg : Config Op Answer} {i j : Nat} {p : Option (Proc Op Answer)} (h : j ≠ i) :
    (cfg.put i p).procs j = cfg.procs j := by simp [Config.put, h]

theorem ninv_step {W : World} {T : Int → Prop} {G : Nat → Str → Prop} {E : Env} {allowed : Config Op Answer → Proc Op Answer → Prop}
    (hG : ∀ t t' n, t ≤ t' → G t n → G t' n)
    (ho : ∀ cfg u t s n k, T t → allowed cfg ⟨.useNonce u t s, .sys (.openExcl n) k⟩ →
      nonceName W.sha1 u t s = .ok n → ¬ G cfg.clock n)
    {a b : Config Op Answer} (ha : NInv W T G a) (h : Step E (program W) allowed a b)
    (hp : ∀ op ∈ b.started, ∀ t, Good (Seen W.digits W.clock) G t (program W op)) : NInv W T G b := by
  cases h with
  | tick t ht =>
    exact {
      seen := fun n hn => (ha.seen n hn).mono ht
      good := fun i p hi => (ha.good i p hi).mono ht
      st := ha.st
      claimP := fun i u t' s p hi hc => by
        obtain ⟨n, h1, h2⟩ := ha.claimP i u t' s p hi hc
        exact ⟨n, h1, h2.imp id (hG _ _ _ ht)⟩
      claimF := fun u t' s hf => by
        obtain ⟨n, h1, h2⟩ := ha.claimF u t' s hf
        exact ⟨n, h1, h2.imp id (hG _ _ _ ht)⟩
      uniqPP := ha.uniqPP
      uniqPF := ha.uniqPF
      uniqF := ha.uniqF }
  | start i op hi =>
    have key : ∀ j q, (a.put i (some ⟨op, program W op⟩)).procs j = some q →
        a.procs j = some q ∨ (j = i ∧ q = ⟨op, program W op⟩) := by
      intro j q hj
      by_cases h : j = i
      · subst h; rw [put_self] at hj; exact .inr ⟨rfl, by simpa using hj.symm⟩
      · rw [put_ne h] at hj; exact .inl hj
    have keyC : ∀ j u t s p, (a.put i (some ⟨op, program W op⟩)).procs j = some ⟨.useNonce u t s, p⟩ →
        Claim p → a.procs j = some ⟨.useNonce u t s, p⟩ := by
      intro j u t s p hj hc
      rcases key _ _ hj with h | ⟨-, h⟩
      · exact h
      · simp only [Proc.mk.injEq] at h
        obtain ⟨rfl, rfl⟩ := h
        exact absurd hc (not_claim_program W u t s)
    exact {
      seen := ha.seen
      good := fun j q hj => by
        rcases key j q hj with h | ⟨-, rfl⟩
        · exact ha.good j q h
        · exact hp op (by simp) _
      st := fun j u t s p hj => by
        rcases key _ _ hj with h | ⟨-, h⟩
        · exact ha.st _ _ _ _ _ h
        · simp only [Proc.mk.injEq] at h
          obtain ⟨rfl, rfl⟩ := h
          exact .inl rfl
      claimP := fun j u t s p hj hc => ha.claimP j u t s p (keyC _ _ _ _ _ hj hc) hc
      claimF := ha.claimF
      uniqPP := fun j j' u t s p q hT hj hj' hc hc' =>
        ha.uniqPP j j' u t s p q hT (keyC _ _ _ _ _ hj hc) (keyC _ _ _ _ _ hj' hc') hc hc'
      uniqPF := fun j u t s p hT hj hc => ha.uniqPF j u t s p hT (keyC _ _ _ _ _ hj hc) hc
      uniqF := ha.uniqF }
  | sys i op c k r fs hi hal hx =>
    have hgood := ha.good i _ hi
    have key : ∀ j q, ({ a.put i (some ⟨op, k r⟩) with fs := fs } : Config Op Answer).procs j = some q →
        (j ≠ i ∧ a.procs j = some q) ∨ (j = i ∧ q = ⟨op, k r⟩) := by
      intro j q hj
      by_cases h : j = i
      · subst h
        have : (a.put j (some ⟨op, k r⟩)).procs j = some q := hj
        rw [put_self] at this; exact .inr ⟨rfl, by simpa using this.symm⟩
      · have : (a.put i (some ⟨op, k r⟩)).procs j = some q := hj
        rw [put_ne h] at this; exact .inl ⟨h, this⟩
    have hkeep : ∀ n, n ∈ a.fs.nonces ∨ G a.clock n → n ∈ fs.nonces ∨ G a.clock n := by
      intro n hn
      rcases hn with hn | hn
      · rcases exec_nonces hx with h | ⟨m, -, -, h⟩ | ⟨m, rfl, h⟩
        · rw [h]; exact .inl hn
        · rw [h]; exact .inl (List.mem_cons_of_mem _ hn)
        · by_cases hm : n = m
          · subst hm; exact .inr (hgood.1 _ (Nat.le_refl _))
          · rw [h]; exact .inl ((List.mem_erase_of_ne hm).2 hn)
      · exact .inr hn
    -- a claim after the step is old, or it is the process that just created the file
    have keyC : ∀ j u t s p, ({ a.put i (some ⟨op, k r⟩) with fs := fs } : Config Op Answer).procs j =
          some ⟨.useNonce u t s, p⟩ → Claim p →
        (∃ p', a.procs j = some ⟨.useNonce u t s, p'⟩ ∧ Claim p') ∨
        (j = i ∧ op = .useNonce u t s ∧ ∃ n, nonceName W.sha1 u t s = .ok n ∧ n ∉ a.fs.nonces ∧
          (T t → ¬ G a.clock n) ∧ n ∈ fs.nonces) := by
      intro j u t s p hj hc
      rcases key _ _ hj with ⟨-, h⟩ | ⟨rfl, h⟩
      · exact .inl ⟨p, h, hc⟩
      · simp only [Proc.mk.injEq] at h
        obtain ⟨rfl, rfl⟩ := h
        rcases (useState_step (ha.st _ _ _ _ _ hi) hx).2 with ⟨-, h⟩ | ⟨n, hn, rfl, h1, h2⟩
        · exact .inl ⟨_, hi, h hc⟩
        · exact .inr ⟨rfl, rfl, n, hn, h1, fun hT => ho a u t s n k hT hal hn, by rw [h2]; simp⟩
    have noP : ∀ u t s n, nonceName W.sha1 u t s = .ok n → n ∉ a.fs.nonces → ¬ G a.clock n →
        ∀ j p, a.procs j = some ⟨.useNonce u t s, p⟩ → ¬ Claim p := by
      intro u t s n hn h1 h2 j p hj hc
      obtain ⟨m, hm, h⟩ := ha.claimP j u t s p hj hc
      rw [hn] at hm
      cases hm
      exact h.elim h1 h2
    have noF : ∀ u t s n, nonceName W.sha1 u t s = .ok n → n ∉ a.fs.nonces → ¬ G a.clock n →
        accepted u t s ∉ a.finished := by
      intro u t s n hn h1 h2 hf
      obtain ⟨m, hm, h⟩ := ha.claimF u t s hf
      rw [hn] at hm
      cases hm
      exact h.elim h1 h2
    exact {
      seen := fun n hn => by
        rcases exec_nonces hx with h | ⟨m, rfl, -, h⟩ | ⟨m, -, h⟩
        · exact ha.seen n (h ▸ hn)
        · have hn' : n ∈ m :: a.fs.nonces := h ▸ hn
          rcases List.mem_cons.1 hn' with rfl | hn'
          · exact hgood.1 _ (Nat.le_refl _)
          · exact ha.seen n hn'
        · have hn' : n ∈ a.fs.nonces.erase m := h ▸ hn
          exact ha.seen n (List.mem_of_mem_erase hn')
      good := fun j q hj => by
        rcases key _ _ hj with ⟨-, h⟩ | ⟨-, rfl⟩
        · exact ha.good j q h
        · exact hgood.2 _ (Nat.le_refl _) r (exec_poss hx ha.seen)
      st := fun j u t s p hj => by
        rcases key _ _ hj with ⟨-, h⟩ | ⟨rfl, h⟩
        · exact ha.st _ _ _ _ _ h
        · simp only [Proc.mk.injEq] at h
          obtain ⟨rfl, rfl⟩ := h
          exact (useState_step (ha.st _ _ _ _ _ hi) hx).1
      claimP := fun j u t s p hj hc => by
        rcases keyC _ _ _ _ _ hj hc with ⟨p', h1, h2⟩ | ⟨-, -, n, h1, -, -, h4⟩
        · obtain ⟨n, h3, h4⟩ := ha.claimP j u t s p' h1 h2
          exact ⟨n, h3, hkeep n h4⟩
        · exact ⟨n, h1, .inl h4⟩
      claimF := fun u t s hf => by
        obtain ⟨n, h3, h4⟩ := ha.claimF u t s hf
        exact ⟨n, h3, hkeep n h4⟩
      uniqPP := fun j j' u t s p q hT hj hj' hc hc' => by
        rcases keyC _ _ _ _ _ hj hc with ⟨p', h1, h2⟩ | ⟨h0, -, n, h1, h2, h3, -⟩
        · rcases keyC _ _ _ _ _ hj' hc' with ⟨q', h1', h2'⟩ | ⟨-, -, n, h1', h2', h3', -⟩
          · exact ha.uniqPP j j' u t s p' q' hT h1 h1' h2 h2'
          · exact absurd h2 (noP u t s n h1' h2' (h3' hT) j p' h1)
        · rcases keyC _ _ _ _ _ hj' hc' with ⟨q', h1', h2'⟩ | ⟨h0', -⟩
          · exact absurd h2' (noP u t s n h1 h2 (h3 hT) j' q' h1')
          · rw [h0, h0']
      uniqPF := fun j u t s p hT hj hc => by
        rcases keyC _ _ _ _ _ hj hc with ⟨p', h1, h2⟩ | ⟨-, -, n, h1, h2, h3, -⟩
        · exact ha.uniqPF j u t s p' hT h1 h2
        · exact noF u t s n h1 h2 (h3 hT)
      uniqF := ha.uniqF }
  | finish i op r hi =>
    have key : ∀ j q, ({ a.put i none with finished := (op, r) :: a.finished } : Config Op Answer).procs j = some q →
        j ≠ i ∧ a.procs j = some q := by
      intro j q hj
      by_cases h : j = i
      · subst h
        have : (a.put j none).procs j = some q := hj
        rw [put_self] at this; simp at this
      · have : (a.put i none).procs j = some q := hj
        rw [put_ne h] at this; exact ⟨h, this⟩
    exact {
      seen := ha.seen
      good := fun j q hj => ha.good j q (key j q hj).2
      st := fun j u t s p hj => ha.st _ _ _ _ _ (key _ _ hj).2
      claimP := fun j u t s p hj hc => ha.claimP j u t s p (key _ _ hj).2 hc
      claimF := fun u t s hf => by
        rcases List.mem_cons.1 hf with h | h
        · simp only [accepted, Prod.mk.injEq] at h
          obtain ⟨rfl, rfl⟩ := h
          exact ha.claimP i u t s _ hi (.inr rfl)
        · exact ha.claimF u t s h
      uniqPP := fun j j' u t s p q hT hj hj' => ha.uniqPP j j' u t s p q hT (key _ _ hj).2 (key _ _ hj').2
      uniqPF := fun j u t s p hT hj hc hf => by
        obtain ⟨hne, hj'⟩ := key _ _ hj
        rcases List.mem_cons.1 hf with h | h
        · simp only [accepted, Prod.mk.injEq] at h
          obtain ⟨rfl, rfl⟩ := h
          exact hne (ha.uniqPP j i u t s p _ hT hj' hi hc (.inr rfl))
        · exact ha.uniqPF j u t s p hT hj' hc h
      uniqF := fun u t s hT => by
        change ((op, r) :: a.finished).count (accepted u t s) ≤ 1
        rw [List.count_cons]
        split
        · next h =>
          have h := eq_of_beq h
          simp only [accepted, Prod.mk.injEq] at h
          obtain ⟨rfl, rfl⟩ := h
          have := List.count_eq_zero.2 (ha.uniqPF i u t s _ hT hi (.inr rfl))
          omega
        · exact ha.uniqF u t s hT }
  | crash i =>
    have key : ∀ j q, (a.put i none).procs j = some q → a.procs j = some q := by
      intro j q hj
      by_cases h : j = i
      · subst h; rw [put_self] at hj; simp at hj
      · rw [put_ne h] at hj; exact hj
    exact {
      seen := ha.seen
      good := fun j q hj => ha.good j q (key j q hj)
      st := fun j u t s p hj => ha.st _ _ _ _ _ (key _ _ hj)
      claimP := fun j u t s p hj hc => ha.claimP j u t s p (key _ _ hj) hc
      claimF := ha.claimF
      uniqPP := fun j j' u t s p q hT hj hj' => ha.uniqPP j j' u t s p q hT (key _ _ hj) (key _ _ hj')
      uniqPF := fun j u t s p hT hj hc => ha.uniqPF j u t s p hT (key _ _ hj) hc
      uniqF := ha.uniqF }

theorem ninv_init (W : World) (T : Int → Prop) (G : Nat → Str → Prop) : NInv W T G (Config.init Op Answer) where
  seen := by simp [Config.init, FS.empty]
  good := by simp [Config.init]
  st := by simp [Config.init]
  claimP := by simp [Config.init]
  claimF := by simp [Config.init]
  uniqPP := by simp [Config.init]
  uniqPF := by simp [Config.init]
  uniqF := by simp [Config.init]

theorem started_step {Op Ans : Type} {E : Env} {pr : Op → Prog Ans} {al : Config Op Ans → Proc Op Ans → Prop}
    {a b : Config Op Ans} (h : Step E pr al a b) : ∀ op ∈ a.started, op ∈ b.started := by
  cases h with
  | start => exact fun op h => List.mem_cons_of_mem _ h
  | _ => exact fun op h => h

theorem ninv_reachable {W : World} {T : Int → Prop} {G : Nat → Str → Prop} {E : Env}
    {allowed : Config Op Answer → Proc Op Answer → Prop}
    (hG : ∀ t t' n, t ≤ t' → G t n → G t' n)
    (ho : ∀ cfg u t s n k, T t → allowed cfg ⟨.useNonce u t s, .sys (.openExcl n) k⟩ →
      nonceName W.sha1 u t s = .ok n → ¬ G cfg.clock n)
    {cfg : Config Op Answer} (h : Reachable E (program W) allowed cfg)
    (hp : ∀ op ∈ cfg.started, ∀ t, Good (Seen W.digits W.clock) G t (program W op)) : NInv W T G cfg := by
  induction h with
  | init => exact ninv_init W T G
  | step h h' ih =>
    exact ninv_step hG ho (ih fun op hop => hp op (started_step h' op hop)) h' hp

/-! ## Processes that are not held up -/

/-- When a process running `useNonce` with a time of `T` gets to create its file, that is within five hours. -/
def Timely (c : Clock) (T : Int → Prop) (cfg : Config Op Answer) : Proc Op Answer → Prop
  | ⟨.useNonce _ t _, .sys (.openExcl _) _⟩ => T t → c.within 18000 cfg.clock t
  | _ => True

theorem timely_ninv {W : World} {T : Int → Prop} {E : Env} {cfg : Config Op Answer}
    (h : Reachable E (program W) (Timely W.clock T) cfg) : NInv W T (Gone W.digits W.clock) cfg := by
  refine ninv_reachable (G := Gone W.digits W.clock) (fun t t' n ht h => h.mono ht) ?_ h
    fun op _ t => good_program W op t
  intro cfg u t s n k hT hal hn ⟨i, h1, h2⟩
  have := (stampOf_name W.digits hn).2 i h1
  subst this
  have hw : W.clock.within 18000 cfg.clock i := hal hT
  have := hw.1
  have e : Nonce.SKEW = 18000 := rfl
  rw [e] at h2
  omega

/-- who is about to create the file is in time -/
def Careful (W : World) (T : Int → Prop) (cfg : Config Op Answer) : Prop := ∀ i u t s n, T t →
  cfg.procs i = some ⟨.useNonce u t s, creating n⟩ → W.clock.within 18000 cfg.clock t

theorem creating_inj {c : Call} {k : c.Reply → Prog Answer} {n : Str} (h : (.sys c k : Prog Answer) = creating n) :
    c = .openExcl n := by
  unfold creating at h
  injection h

theorem careful_step {W : World} {T : Int → Prop} {E : Env} {a b : Config Op Answer} (h : Careful W T a)
    (hn : NInv W T (Gone W.digits W.clock) a) (h' : Step E (program W) (fun _ _ => True) a b)
    (hw : ∀ i p url t salt, T t → a.procs i = some p → p.op = .useNonce url t salt →
      W.clock.within 18000 a.clock t → W.clock.within 18000 b.clock t) :
    Careful W T b ∧ Step E (program W) (Timely W.clock T) a b := by
  cases h' with
  | tick t' hl =>
    exact ⟨fun i u t s n hT hi => hw i _ u t s hT hi rfl (h i u t s n hT hi), .tick a t' hl⟩
  | start i op hi =>
    refine ⟨fun j u t s n hT hj => ?_, .start a i op hi⟩
    by_cases hji : j = i
    · subst hji
      replace hj : (a.put j (some ⟨op, program W op⟩)).procs j = some ⟨.useNonce u t s, creating n⟩ := hj
      rw [put_self] at hj
      simp only [Option.some.injEq, Proc.mk.injEq] at hj
      obtain ⟨rfl, hj⟩ := hj
      rw [program_useNonce] at hj
      cases creating_inj hj
    · replace hj : (a.put i (some ⟨op, program W op⟩)).procs j = some ⟨.useNonce u t s, creating n⟩ := hj
      rw [put_ne hji] at hj
      exact h j u t s n hT hj
  | sys i op c k r fs hi hal hx =>
    refine ⟨fun j u t s n hT hj => ?_, .sys a i op c k r fs hi ?_ hx⟩
    · by_cases hji : j = i
      · subst hji
        replace hj : (a.put j (some ⟨op, k r⟩)).procs j = some ⟨.useNonce u t s, creating n⟩ := hj
        rw [put_self] at hj
        simp only [Option.some.injEq, Proc.mk.injEq] at hj
        obtain ⟨rfl, hj⟩ := hj
        rcases hn.st _ _ _ _ _ hi with h1 | ⟨m, -, h1⟩ | ⟨m, -, h1⟩ | ⟨e, h1⟩ | h1 | ⟨m, -, h1⟩
        · rw [program_useNonce] at h1
          cases h1
          have hr : r = a.clock := by
            cases hx with
            | fault _ _ _ h => simp [Call.fault] at h
            | time => rfl
          subst hr
          refine Classical.byContradiction fun hout => ?_
          have ho : outside W.clock a.clock t = true := (outside_iff ..).2 hout
          simp only [useNonceAt, ho, if_true] at hj
          cases hj
        · rw [h1] at hi
          exact h j u t s m hT hi
        · unfold created at h1
          cases h1
          cases r <;> cases hj
        · cases h1
        · cases h1
        · cases h1
      · replace hj : (a.put i (some ⟨op, k r⟩)).procs j = some ⟨.useNonce u t s, creating n⟩ := hj
        rw [put_ne hji] at hj
        exact h j u t s n hT hj
    · unfold Timely
      split
      · next u t s n k' heq =>
        intro hT
        injection heq with h1 h2
        subst h1
        injection h2 with h3 h4
        subst h3
        rcases hn.st _ _ _ _ _ hi with h1 | ⟨m, -, h1⟩ | ⟨m, -, h1⟩ | ⟨e, h1⟩ | h1 | ⟨m, -, h1⟩
        · rw [program_useNonce] at h1
          cases h1
        · rw [h1] at hi
          exact h i u t s m hT hi
        · unfold created at h1
          cases h1
        · cases h1
        · cases h1
        · cases h1
      · trivial
  | finish i op r hi =>
    refine ⟨fun j u t s n hT hj => ?_, .finish a i op r hi⟩
    by_cases hji : j = i
    · subst hji
      replace hj : (a.put j none).procs j = some ⟨.useNonce u t s, creating n⟩ := hj
      rw [put_self] at hj
      cases hj
    · replace hj : (a.put i none).procs j = some ⟨.useNonce u t s, creating n⟩ := hj
      rw [put_ne hji] at hj
      exact h j u t s n hT hj
  | crash i =>
    refine ⟨fun j u t s n hT hj => ?_, .crash a i⟩
    by_cases hji : j = i
    · subst hji
      rw [put_self] at hj
      cases hj
    · rw [put_ne hji] at hj
      exact h j u t s n hT hj

end FileStore
