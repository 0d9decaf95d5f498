import Verif.Model.FileSetup
/-! # Opening the file store: what its program does among others -/

namespace FileSetup
open Py

/-- What a program may do, `K` being directories that are there; `clear p` says that nothing is in the way at `p`. -/
def Safe (clear : Path → Prop) (Q : Except Errno Unit → (Path → Prop) → Prop) : (Path → Prop) → Prog → Prop
  | K, .done r => Q r K
  | K, .exists p k => ∀ b K', (∀ q, K q → K' q) → (clear p → b = true → K' p) → Safe clear Q K' (k b)
  | K, .isdir p k => ∀ b K', (∀ q, K q → K' q) → (b = true → K' p) → (K p → b = true) → Safe clear Q K' (k b)
  | K, .mkdir p k => ∀ r K', (∀ q, K q → K' q) → (r = .ok () → K' p) →
      (clear p → K p.tail → (r = .ok () ∨ r = .error .eexist) ∧ K' p) → Safe clear Q K' (k r)

variable {clear : Path → Prop} {Q Q' : Except Errno Unit → (Path → Prop) → Prop}

/-- what is known only grows -/
def Grows (Q : Except Errno Unit → (Path → Prop) → Prop) : Prop :=
  ∀ r K K', (∀ q, K q → K' q) → Q r K → Q r K'

theorem Safe.mono (hQ : Grows Q) {K K' : Path → Prop} {p : Prog} (hK : ∀ q, K q → K' q) (h : Safe clear Q K p) :
    Safe clear Q K' p := by
  cases p with
  | done r => exact hQ r K K' hK h
  | «exists» p k => exact fun b K2 h2 => h b K2 fun q hq => h2 q (hK q hq)
  | isdir p k => exact fun b K2 h2 h3 h4 => h b K2 (fun q hq => h2 q (hK q hq)) h3 fun hq => h4 (hK _ hq)
  | mkdir p k => exact fun r K2 h2 h3 h4 => h r K2 (fun q hq => h2 q (hK q hq)) h3 fun hc hq => h4 hc (hK _ hq)

theorem Safe.andThen {K : Path → Prop} {p : Prog} {f : Except Errno Unit → Prog} (h : Safe clear Q K p)
    (hf : ∀ r K', (∀ q, K q → K' q) → Q r K' → Safe clear Q' K' (f r)) : Safe clear Q' K (p.andThen f) := by
  induction p generalizing K with
  | done r => exact hf r K (fun _ h => h) h
  | «exists» p k ih => exact fun b K' h1 h2 => ih b (h b K' h1 h2) fun r K2 h3 => hf r K2 fun q hq => h3 q (h1 q hq)
  | isdir p k ih => exact fun b K' h1 h2 h4 => ih b (h b K' h1 h2 h4) fun r K2 h3 => hf r K2 fun q hq => h3 q (h1 q hq)
  | mkdir p k ih => exact fun b K' h1 h2 h4 => ih b (h b K' h1 h2 h4) fun r K2 h3 => hf r K2 fun q hq => h3 q (h1 q hq)

/-- `os.makedirs` makes the directory; with nothing in the way it is there in any case -/
def Makes (clear : Path → Prop) (p : Path) (r : Except Errno Unit) (K : Path → Prop) : Prop :=
  (r = .ok () → K p) ∧ ((∀ q, q <:+ p → clear q) → (r = .ok () ∨ r = .error .eexist) ∧ K p)

theorem safe_makedirs (p : Path) (K : Path → Prop) (hr : K []) : Safe clear (Makes clear p) K (makedirs p) := by
  induction p generalizing K with
  | nil =>
    intro r K' h1 h2 h3
    exact ⟨h2, fun hc => h3 (hc [] List.suffix_rfl) hr⟩
  | cons x h ih =>
    have last : ∀ K, ((∀ q, q <:+ x :: h → clear q) → K h) → Safe clear (Makes clear (x :: h)) K (.mkdir (x :: h) .done) :=
      fun K hK r K' h1 h2 h3 => ⟨h2, fun hc => h3 (hc _ List.suffix_rfl) (hK hc)⟩
    intro b K1 h1 h2
    cases b with
    | true => exact last K1 fun hc => h2 (hc h (List.suffix_cons x h)) rfl
    | false =>
      refine (ih K1 (h1 _ hr)).andThen fun r K2 h3 hm => ?_
      have up : (∀ q, q <:+ x :: h → clear q) → ∀ q, q <:+ h → clear q :=
        fun hc q hq => hc q (hq.trans (List.suffix_cons x h))
      match r, hm with
      | .ok (), hm => exact last K2 fun _ => hm.1 rfl
      | .error .eexist, hm => exact last K2 fun hc => (hm.2 (up hc)).2
      | .error .enoent, hm => exact ⟨by simp, fun hc => by simpa using (hm.2 (up hc)).1⟩
      | .error .other, hm => exact ⟨by simp, fun hc => by simpa using (hm.2 (up hc)).1⟩

/-- the directory is there afterwards, and with nothing in the way nothing is raised -/
def Ensures (clear : Path → Prop) (p : Path) (r : Except Errno Unit) (K : Path → Prop) : Prop :=
  (r = .ok () → K p) ∧ ((∀ q, q <:+ p → clear q) → r = .ok ())

theorem safe_ensureDir (p : Path) (K : Path → Prop) (hr : K []) : Safe clear (Ensures clear p) K (ensureDir p) := by
  refine (safe_makedirs p K hr).andThen fun r K' _ hm => ?_
  match r, hm with
  | .ok (), hm => exact ⟨hm.1, fun _ => rfl⟩
  | .error .enoent, hm => exact ⟨by simp, fun hc => by simpa using (hm.2 hc).1⟩
  | .error .other, hm => exact ⟨by simp, fun hc => by simpa using (hm.2 hc).1⟩
  | .error .eexist, hm =>
    intro b K2 h1 h2 h3
    cases b with
    | true => exact ⟨fun _ => h2 rfl, fun _ => rfl⟩
    | false => exact ⟨by simp, fun hc => absurd (h3 (hm.2 hc).2) (by simp)⟩

/-- the three directories of a store -/
def parts (d : Path) : List Path := [t!"nonces" :: d, t!"associations" :: d, t!"temp" :: d]

def Opens (clear : Path → Prop) (d : Path) (r : Except Errno Unit) (K : Path → Prop) : Prop :=
  (r = .ok () → ∀ p ∈ parts d, K p) ∧ ((∀ p ∈ parts d, ∀ q, q <:+ p → clear q) → r = .ok ())

theorem opens_grows (d : Path) : Grows (Opens clear d) :=
  fun _ _ _ hK h => ⟨fun hr p hp => hK p (h.1 hr p hp), h.2⟩

theorem safe_setup (d : Path) (K : Path → Prop) (hr : K []) : Safe clear (Opens clear d) K (setup d) := by
  refine (safe_ensureDir _ K hr).andThen fun r K1 g1 h1 => ?_
  match r, h1 with
  | .error e, h1 => exact ⟨by simp, fun hc => h1.2 (hc _ (by simp [parts]))⟩
  | .ok (), h1 =>
    refine (safe_ensureDir _ K1 (g1 _ hr)).andThen fun r K2 g2 h2 => ?_
    match r, h2 with
    | .error e, h2 => exact ⟨by simp, fun hc => h2.2 (hc _ (by simp [parts]))⟩
    | .ok (), h2 =>
      have h3 := safe_ensureDir (clear := clear) (t!"temp" :: d) K2 (g2 _ (g1 _ hr))
      have : ensureDir (t!"temp" :: d) = (ensureDir (t!"temp" :: d)).andThen .done := by
        have id : ∀ p : Prog, p.andThen .done = p := by
          intro p
          induction p with
          | done r => rfl
          | «exists» p k ih => simp only [Prog.andThen, ih]
          | isdir p k ih => simp only [Prog.andThen, ih]
          | mkdir p k ih => simp only [Prog.andThen, ih]
        rw [id]
      show Safe clear (Opens clear d) K2 (ensureDir (t!"temp" :: d))
      rw [this]
      refine h3.andThen fun r K3 g3 h3 => ⟨fun hr p hp => ?_, fun hc => h3.2 (hc _ (by simp [parts]))⟩
      simp only [parts, List.mem_cons, List.not_mem_nil, or_false] at hp
      rcases hp with rfl | rfl | rfl
      · exact g3 _ (g2 _ (h1.1 rfl))
      · exact g3 _ (h2.1 rfl)
      · exact h3.1 hr

/-! ## the system -/

def Known (s : Dirs) (p : Path) : Prop := isDir s p = true

/-- nothing is in the way at `p`: no file, and no failures -/
def Clear (E : Env) (p : Path) : Prop := E.file p = false ∧ E.faulty p = false

theorem known_cons (s : Dirs) (p q : Path) (h : Known s q) : Known (p :: s) q := by
  unfold Known isDir at *
  simp only [Bool.or_eq_true, decide_eq_true_eq, List.mem_cons] at *
  rcases h with h | h
  · exact .inl h
  · exact .inr (.inr h)

theorem call_safe {E : Env} {s : Dirs} {Q : Except Errno Unit → (Path → Prop) → Prop} {p : Prog}
    (h : Safe (Clear E) Q (Known s) p) :
    Safe (Clear E) Q (Known (call E s p).2) (call E s p).1 ∧ ∀ q, Known s q → Known (call E s p).2 q := by
  cases p with
  | done r => exact ⟨h, fun _ h => h⟩
  | «exists» p k =>
    refine ⟨h _ _ (fun _ h => h) fun hc hb => ?_, fun _ h => h⟩
    unfold isThere at hb
    rw [hc.1, Bool.or_false] at hb
    exact hb
  | isdir p k => exact ⟨h _ _ (fun _ h => h) (fun h => h) fun h => h, fun _ h => h⟩
  | mkdir p k =>
    have grow : ∀ q, Known s q → Known (doMkdir E s p).2 q := by
      intro q hq
      unfold doMkdir
      split
      · exact hq
      · split
        · exact known_cons s p q hq
        · split <;> exact hq
    refine ⟨h _ _ grow (fun hr => ?_) fun hc hp => ?_, grow⟩
    · show Known (doMkdir E s p).2 p
      unfold doMkdir at hr ⊢
      split at hr
      · cases hr
      · split at hr
        · next h1 h2 => rw [if_neg h1, if_pos h2]; simp [Known, isDir]
        · split at hr <;> cases hr
    · show (_ ∨ _) ∧ Known (doMkdir E s p).2 p
      have hp : isDir s p.tail = true := hp
      unfold doMkdir
      split
      · next h1 =>
        refine ⟨.inr rfl, ?_⟩
        unfold isThere at h1
        rw [hc.1, Bool.or_false] at h1
        exact h1
      · exact ⟨.inl rfl, by simp [Known, isDir]⟩

/-- what holds at every moment -/
structure Inv (E : Env) (c : Config) : Prop where
  procs : ∀ i d p, c.procs i = some (d, p) → Safe (Clear E) (Opens (Clear E) d) (Known c.dirs) p
  fin : ∀ d r, (d, r) ∈ c.finished → Opens (Clear E) d r (Known c.dirs)

theorem inv_put {E : Env} {c : Config} (h : Inv E c) (i : Nat) (s : Dirs) (x : Option (Path × Prog))
    (hs : ∀ q, Known c.dirs q → Known s q)
    (hx : ∀ d p, x = some (d, p) → Safe (Clear E) (Opens (Clear E) d) (Known s) p) :
    Inv E { c.put i x with dirs := s } := by
  refine ⟨fun j d p hj => ?_, fun d r hr => opens_grows d r _ _ hs (h.fin d r hr)⟩
  unfold Config.put at hj
  simp only at hj
  split at hj
  · exact hx d p hj
  · exact (h.procs j d p hj).mono (opens_grows d) hs

theorem inv_step {E : Env} {c : Config} (h : Inv E c) (a : Act) : Inv E (step E c a) := by
  have id : ∀ q, Known c.dirs q → Known c.dirs q := fun _ h => h
  cases a with
  | start i d =>
    simp only [step]; split
    · refine inv_put h i c.dirs _ id fun d' p hx => ?_
      cases hx
      exact safe_setup d _ rfl
    · exact h
  | run i =>
    simp only [step]; split
    · next d p hp =>
      have := call_safe (h.procs i d p hp)
      exact inv_put h i _ _ this.2 fun d' p' hx => by cases hx; exact this.1
    · exact h
  | fault i =>
    simp only [step]; split
    · next d p k hp =>
      split
      · next hf =>
        refine inv_put h i c.dirs _ id fun d' p' hx => ?_
        cases hx
        exact h.procs i d _ hp _ _ id (by simp) fun hc => by rw [hc.2] at hf; cases hf
      · exact h
    · exact h
  | finish i =>
    simp only [step]; split
    · next d r hp =>
      have h' := inv_put h i c.dirs none id (fun _ _ h => nomatch h)
      refine ⟨h'.procs, fun d' r' hr => ?_⟩
      rcases List.mem_cons.1 hr with hr | hr
      · cases hr; exact h.procs i d _ hp
      · exact h.fin d' r' hr
    · exact h
  | crash i => exact inv_put h i c.dirs none id (fun _ _ h => nomatch h)
  | other p =>
    simp only [step]; split
    · exact h
    · exact ⟨fun i d q hq => (h.procs i d q hq).mono (opens_grows d) (known_cons c.dirs p),
        fun d r hr => opens_grows d r _ _ (known_cons c.dirs p) (h.fin d r hr)⟩

theorem inv_after (E : Env) (s : Dirs) (l : List Act) : Inv E (after E s l) := by
  have : ∀ (l : List Act) (c : Config), Inv E c → Inv E (l.foldl (step E) c) := by
    intro l
    induction l with
    | nil => exact fun c h => h
    | cons a l ih => exact fun c h => ih _ (inv_step h a)
  exact this l _ ⟨fun i d p h => (nomatch h), fun d r h => (nomatch h)⟩

end FileSetup
