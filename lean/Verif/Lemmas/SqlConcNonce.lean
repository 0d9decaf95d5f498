import Verif.Lemmas.SqlConc
/-! # Several clients of an SQL store: nonces -/

namespace SqlConc
open Py Association Store SqlStore SqlRows Spec

/-! ## The programs of `useNonce` -/

abbrev Key := Str × Int × Str

/-- the last thing to do: to commit, and answer -/
def answer (D : Driver) (k : Key) (b : Bool) : Prog Answer :=
  .commit fun
    | .error e => .done (caught D.backend (.useNonce k.1 k.2.1 k.2.2) (.error e))
    | .ok () => .done (.ok (.bool b))

/-- the insertion of the row, and what follows -/
def adding (D : Driver) (k : Key) : Prog Answer :=
  .exec (.addNonce k) fun
    | .ok _ => answer D k true
    | .error e =>
      if e = .integrityError then answer D k false
      else .rollback fun
        | .error e' => .done (caught D.backend (.useNonce k.1 k.2.1 k.2.2) (.error e'))
        | .ok () => .done (caught D.backend (.useNonce k.1 k.2.1 k.2.2) (.error e))

/-- the look at the clock, and what follows -/
def checking (D : Driver) (c : Clock) (k : Key) : Prog Answer :=
  .time fun now => if outside c now k.2.1 then answer D k false else adding D k

def opening (D : Driver) (c : Clock) (k : Key) : Prog Answer :=
  .rollback fun
    | .error e => .done (caught D.backend (.useNonce k.1 k.2.1 k.2.2) (.error e))
    | .ok () => checking D c k

theorem program_useNonce (D : Driver) (c : Clock) (k : Key) :
    program D c (.useNonce k.1 k.2.1 k.2.2) = opening D c k := by
  unfold program callInTransaction opening
  simp only [Prog.next]
  congr 1
  funext r
  cases r with
  | error e => rfl
  | ok x =>
    simp only [body, useNonce, checking]
    show Prog.time _ = Prog.time _
    congr 1
    funext now
    by_cases ho : outside c now k.2.1 = true <;> simp only [ho, ↓reduceIte, Bool.false_eq_true]
    · show Prog.commit _ = Prog.commit _
      congr 1
      funext r
      cases r <;> rfl
    · show Prog.exec _ _ = Prog.exec _ _
      congr 1
      funext r
      cases r with
      | ok n =>
        show Prog.commit _ = Prog.commit _
        congr 1
        funext r
        cases r <;> rfl
      | error e =>
        by_cases he : e = .integrityError <;> simp only [he, ↓reduceIte]
        · show Prog.commit _ = Prog.commit _
          congr 1
          funext r
          cases r <;> rfl
        · show Prog.rollback _ = Prog.rollback _
          congr 1
          funext r
          cases r <;> rfl

/-- a program that never ends in acceptance -/
def Never : Prog Answer → Prop
  | .done r => r ≠ .ok (.bool true)
  | .time k => ∀ x, Never (k x)
  | .query _ k => ∀ x, Never (k x)
  | .exec _ k => ∀ x, Never (k x)
  | .rollback k => ∀ x, Never (k x)
  | .commit k => ∀ x, Never (k x)

theorem never_caught (B : Backend) (op : Op) (e : PyErr) : Never (.done (caught B op (.error e))) := by
  show caught B op (.error e) ≠ .ok (.bool true)
  unfold caught
  split
  · split <;> simp
  · simp

theorem never_false (D : Driver) (k : Key) : Never (answer D k false) := by
  intro r
  cases r with
  | error e => exact never_caught _ _ _
  | ok x => simp [Never]

/-- accepted, and on the way to say so -/
def accepting (D : Driver) (k : Key) (p : Prog Answer) : Prop := p = answer D k true ∨ p = .done (.ok (.bool true))

theorem Never.not_accepting {D : Driver} {k : Key} {p : Prog Answer} (h : Never p) : ¬ accepting D k p := by
  rintro (rfl | rfl)
  · exact h (.ok ()) rfl
  · exact h rfl

/-! ## The table -/

/-- the window of a nonce is over -/
def Over (c : Clock) (now : Nat) (k : Key) : Prop := k.2.1 * c.tick + Nonce.SKEW * c.tick < now

theorem Over.mono {c : Clock} {t t' : Nat} {k : Key} (h : Over c t k) (ht : t ≤ t') : Over c t' k := by
  simp only [Over] at *
  omega

/-- a nonce that cannot be taken: its row is there, or its time is over -/
def Taken (c : Clock) (now : Nat) (l : List (Entry Key)) (k : Key) : Prop :=
  (∃ e ∈ l, e.row = k ∧ e.ins = none) ∨ Over c now k

/-- rows are deleted only when their time is over -/
def OnlyOld (c : Clock) (now : Nat) (l : List (Entry Key)) : Prop := ∀ e ∈ l, e.del ≠ none → Over c now e.row

/-- what a client may do to the table -/
structure Act (c : Clock) (now i : Nat) (l l' : List (Entry Key)) : Prop where
  taken : ∀ k, Taken c now l k → Taken c now l' k
  old : OnlyOld c now l'
  clean : ∀ j, j ≠ i → Clean j l → Clean j l'
  mine : ∀ j, j ≠ i → ∀ k, (⟨k, some j, none⟩ : Entry Key) ∈ l → (⟨k, some j, none⟩ : Entry Key) ∈ l'

variable {c : Clock} {now i : Nat} {l l' : List (Entry Key)}

theorem act_same (h : OnlyOld c now l) : Act c now i l l :=
  ⟨fun _ h => h, h, fun _ _ h => h, fun _ _ _ h => h⟩

theorem act_rollback (h : OnlyOld c now l) : Act c now i l (SqlRows.rollback i l) where
  taken k hk := by
    rcases hk with ⟨e, he, h1, h2⟩ | hk
    · left
      cases hd : e.del == some i with
      | true => exact ⟨_, rollback_mem.2 ⟨e, he, by simp [h2], .inl ⟨eq_of_beq hd, rfl⟩⟩, h1, h2⟩
      | false => exact ⟨_, rollback_mem.2 ⟨e, he, by simp [h2], .inr ⟨by simpa using hd, rfl⟩⟩, h1, h2⟩
    · exact .inr hk
  old e' he' hd := by
    obtain ⟨e, he, -, ⟨-, rfl⟩ | ⟨-, rfl⟩⟩ := rollback_mem.1 he'
    · simp at hd
    · exact h _ he hd
  clean j _ hc := hc.rollback i
  mine j hj k hk := rollback_mem.2 ⟨_, hk, by simpa using hj, .inr ⟨by simp, rfl⟩⟩

theorem act_commit (h : OnlyOld c now l) : Act c now i l (SqlRows.commit i l) where
  taken k hk := by
    rcases hk with ⟨e, he, h1, h2⟩ | hk
    · cases hd : e.del == some i with
      | true =>
        rw [← h1]
        exact .inr (h e he (by simp [eq_of_beq hd]))
      | false =>
        exact .inl ⟨e, commit_mem.2 ⟨e, he, by simpa using hd, .inr ⟨by simp [h2], rfl⟩⟩, h1, h2⟩
    · exact .inr hk
  old e' he' hd := by
    obtain ⟨e, he, -, ⟨-, rfl⟩ | ⟨-, rfl⟩⟩ := commit_mem.1 he'
    · exact h e he hd
    · exact h _ he hd
  clean j _ hc := hc.commit i
  mine j hj k hk := commit_mem.2 ⟨_, hk, by simp, .inr ⟨by simpa using hj, rfl⟩⟩

theorem act_drop {p : Key → Bool} (h : OnlyOld c now l) (hp : ∀ k, p k = true → Over c now k) :
    Act c now i l (drop i p l) where
  taken k hk := by
    rcases hk with ⟨e, he, h1, h2⟩ | hk
    · left
      cases hd : e.seen i && p e.row with
      | true => exact ⟨_, drop_mem.2 ⟨e, he, .inl ⟨hd, by simp [h2], rfl⟩⟩, h1, h2⟩
      | false => exact ⟨_, drop_mem.2 ⟨e, he, .inr ⟨hd, rfl⟩⟩, h1, h2⟩
    · exact .inr hk
  old e' he' hd := by
    obtain ⟨e, he, ⟨h1, -, rfl⟩ | ⟨-, rfl⟩⟩ := drop_mem.1 he'
    · rw [Bool.and_eq_true] at h1
      exact hp _ h1.2
    · exact h _ he hd
  clean j hj hc := hc.drop fun h => hj h.symm
  mine j hj k hk := drop_mem.2 ⟨_, hk, .inr ⟨by
    have : (⟨k, some j, none⟩ : Entry Key).seen i = false := by
      simp only [Entry.seen]
      simp [hj]
    rw [this]
    rfl, rfl⟩⟩

theorem act_append {k : Key} (h : OnlyOld c now l) : Act c now i l (l ++ [⟨k, some i, none⟩]) where
  taken k hk := by
    rcases hk with ⟨e, he, h1, h2⟩ | hk
    · exact .inl ⟨e, List.mem_append_left _ he, h1, h2⟩
    · exact .inr hk
  old e he hd := by
    rcases List.mem_append.1 he with he | he
    · exact h e he hd
    · obtain rfl := List.mem_singleton.1 he
      simp at hd
  clean j hj hc := hc.append fun h => hj h.symm
  mine j hj k hk := List.mem_append_left _ hk

theorem over_of_lt {k : Key} {t : Int} (ht : t ≤ c.seconds now - Nonce.SKEW) (h : k.2.1 < t) : Over c now k := by
  simp only [Over, Clock.seconds] at *
  have hp := c.pos
  have h1 : k.2.1 + Nonce.SKEW + 1 ≤ (now : Int) / c.tick := by omega
  have h2 := (Int.le_ediv_iff_mul_le (by omega)).1 h1
  rw [Int.add_mul, Int.add_mul] at h2
  omega

/-- what the statements of an operation do -/
theorem act_perform {D : Driver} {op : Op} {w : Point} {s : Stmt} {db db' : Tables} {r : Except PyErr Nat}
    (hw : w.clock = now) (hd : Does c op w s) (h : OnlyOld c now db.nonces)
    (hx : s.perform D i db = some (r, db')) : Act c now i db.nonces db'.nonces := by
  subst hw
  cases s with
  | replaceAssoc u a =>
    simp only [Stmt.perform, Option.map_eq_some_iff, Prod.mk.injEq] at hx
    obtain ⟨l, hl, -, rfl⟩ := hx
    exact act_same h
  | insertAssoc u a =>
    simp only [Stmt.perform, Option.map_eq_some_iff, Prod.mk.injEq] at hx
    obtain ⟨⟨l, b⟩, hl, -, rfl⟩ := hx
    exact act_same h
  | updateAssoc u a =>
    simp only [Stmt.perform, Option.map_eq_some_iff, Prod.mk.injEq] at hx
    obtain ⟨⟨l, n⟩, hl, -, rfl⟩ := hx
    exact act_same h
  | removeAssoc u hd =>
    simp only [Stmt.perform, Option.map_eq_some_iff, Prod.mk.injEq] at hx
    obtain ⟨⟨l, n⟩, hl, -, rfl⟩ := hx
    exact act_same h
  | cleanAssocs t =>
    simp only [Stmt.perform, Option.map_eq_some_iff, Prod.mk.injEq] at hx
    obtain ⟨⟨l, n⟩, hl, -, rfl⟩ := hx
    exact act_same h
  | addNonce k =>
    simp only [Stmt.perform, Option.map_eq_some_iff, Prod.mk.injEq] at hx
    obtain ⟨⟨l, b⟩, hl, -, rfl⟩ := hx
    obtain ⟨-, ⟨-, rfl, -⟩ | ⟨-, rfl, -⟩⟩ := insert_some hl
    · exact act_same h
    · exact act_append h
  | cleanNonces t =>
    simp only [Stmt.perform, Option.map_eq_some_iff, Prod.mk.injEq] at hx
    obtain ⟨⟨l, n⟩, hl, -, rfl⟩ := hx
    obtain ⟨-, rfl, -⟩ := delete_some hl
    have ht : t ≤ c.seconds w.clock - Nonce.SKEW := by
      cases op <;> simp only [Does, reduceCtorEq, false_and, exists_false, or_self] at hd
      obtain ⟨l, h1, h2⟩ := hd
      cases h1
      exact h2
    exact act_drop (p := fun k => decide (k.2.1 < t)) h fun k hk => over_of_lt ht (by simpa using hk)

theorem act_failed {db db' : Tables} (h : OnlyOld c now db.nonces) (hf : Failed i db db') :
    Act c now i db.nonces db'.nonces := by
  cases hf with
  | same => exact act_same h
  | aborted => exact act_rollback h

/-! ## The clients -/

/-- where a client is in `useNonce` -/
inductive Phase (D : Driver) (c : Clock) (now i : Nat) (l : List (Entry Key)) (k : Key) : Prog Answer → Prop where
  | opening : Phase D c now i l k (opening D c k)
  | checking (h : Clean i l) : Phase D c now i l k (checking D c k)
  | adding (h : Clean i l) : Phase D c now i l k (adding D k)
  | answer (h : (⟨k, some i, none⟩ : Entry Key) ∈ l) : Phase D c now i l k (answer D k true)
  | done (h : Taken c now l k) : Phase D c now i l k (.done (.ok (.bool true)))
  | never {p : Prog Answer} (h : Never p) : Phase D c now i l k p

theorem Phase.act {D : Driver} {j : Nat} {k : Key} {p : Prog Answer} (ha : Act c now i l l') (hj : j ≠ i)
    (h : Phase D c now j l k p) : Phase D c now j l' k p := by
  cases h with
  | opening => exact .opening
  | checking h => exact .checking (ha.clean j hj h)
  | adding h => exact .adding (ha.clean j hj h)
  | answer h => exact .answer (ha.mine j hj k h)
  | done h => exact .done (ha.taken k h)
  | never h => exact .never h

theorem Taken.mono {t' : Nat} {k : Key} (h : Taken c now l k) (ht : now ≤ t') : Taken c t' l k :=
  h.imp id fun h => h.mono ht

theorem Phase.mono {D : Driver} {t' : Nat} {k : Key} {p : Prog Answer} (ht : now ≤ t')
    (h : Phase D c now i l k p) : Phase D c t' i l k p := by
  cases h with
  | opening => exact .opening
  | checking h => exact .checking h
  | adding h => exact .adding h
  | answer h => exact .answer h
  | done h => exact .done (h.mono ht)
  | never h => exact .never h

/-- When a client that runs `useNonce` with the time `t` gets to insert its row, that is within five hours. -/
def InTime (D : Driver) (c : Clock) (t : Int) (cfg : Config) (cl : Client) : Prop :=
  ∀ k : Key, k.2.1 = t → cl.op = .useNonce k.1 k.2.1 k.2.2 → cl.todo = adding D k → c.within 18000 cfg.clock t

/-- client `i` is about to accept the nonce -/
def Accepting (D : Driver) (cfg : Config) (i : Nat) (k : Key) : Prop :=
  ∃ cl, cfg.clients i = some cl ∧ cl.op = .useNonce k.1 k.2.1 k.2.2 ∧ accepting D k cl.todo

structure Once (D : Driver) (c : Clock) (t : Int) (cfg : Config) : Prop where
  old : OnlyOld c cfg.clock cfg.db.nonces
  phase : ∀ i cl (k : Key), cfg.clients i = some cl → cl.op = .useNonce k.1 k.2.1 k.2.2 →
    Phase D c cfg.clock i cfg.db.nonces k cl.todo
  one : ∀ i j (k : Key), k.2.1 = t → Accepting D cfg i k → Accepting D cfg j k → i = j
  told : ∀ k : Key, k.2.1 = t → 0 < accepted cfg k.1 k.2.1 k.2.2 →
    Taken c cfg.clock cfg.db.nonces k ∧ (∀ i, ¬ Accepting D cfg i k)
  once : ∀ k : Key, k.2.1 = t → accepted cfg k.1 k.2.1 k.2.2 ≤ 1

/-- a step of one client -/
theorem Once.go {D : Driver} {t : Int} {cfg : Config} (h : Once D c t cfg) {op : Op} {s : Nat}
    {p' : Prog Answer} {db : Tables}
    (ha : Act c cfg.clock i cfg.db.nonces db.nonces)
    (hp : ∀ k : Key, op = .useNonce k.1 k.2.1 k.2.2 → Phase D c cfg.clock i db.nonces k p')
    (hn : ∀ k : Key, k.2.1 = t → op = .useNonce k.1 k.2.1 k.2.2 → accepting D k p' →
      Accepting D cfg i k ∨ (accepted cfg k.1 k.2.1 k.2.2 = 0 ∧ ∀ j, j ≠ i → ¬ Accepting D cfg j k)) :
    Once D c t { cfg.put i (some ⟨op, s, p'⟩) with db := db } := by
  -- who is accepting now was accepting before, or it is `i` and nobody else was
  have hacc : ∀ j (k : Key), k.2.1 = t → Accepting D { cfg.put i (some ⟨op, s, p'⟩) with db := db } j k →
      Accepting D cfg j k ∨ (j = i ∧ accepted cfg k.1 k.2.1 k.2.2 = 0 ∧ ∀ j, j ≠ i → ¬ Accepting D cfg j k) := by
    rintro j k hk ⟨cl, h1, h2, h3⟩
    rcases put_some (cfg := cfg) h1 with ⟨rfl, h4⟩ | ⟨-, h4⟩
    · obtain rfl := Option.some.inj h4
      rcases hn k hk h2 h3 with h5 | h5
      · exact .inl h5
      · exact .inr ⟨rfl, h5⟩
    · exact .inl ⟨cl, h4, h2, h3⟩
  refine ⟨ha.old, ?_, ?_, ?_, h.once⟩
  · intro j cl k h1 h2
    rcases put_some (cfg := cfg) h1 with ⟨rfl, h4⟩ | ⟨hj, h4⟩
    · obtain rfl := Option.some.inj h4
      exact hp k h2
    · exact (h.phase j cl k h4 h2).act ha hj
  · intro j1 j2 k hk h1 h2
    rcases hacc j1 k hk h1 with h3 | ⟨e1, -, h3⟩ <;> rcases hacc j2 k hk h2 with h4 | ⟨e2, -, h4⟩
    · exact h.one j1 j2 k hk h3 h4
    · exact Classical.byContradiction fun hne => h4 j1 (by rw [← e2]; exact hne) h3
    · exact Classical.byContradiction fun hne => h3 j2 (by rw [← e1]; exact fun e => hne e.symm) h4
    · rw [e1, e2]
  · intro k ht hk
    obtain ⟨h1, h2⟩ := h.told k ht hk
    refine ⟨ha.taken k h1, fun j hj => ?_⟩
    rcases hacc j k ht hj with h3 | ⟨-, h3, -⟩
    · exact h2 j h3
    · have : accepted { cfg.put i (some ⟨op, s, p'⟩) with db := db } k.1 k.2.1 k.2.2 =
        accepted cfg k.1 k.2.1 k.2.2 := rfl
      omega

/-- a step that does not lead to acceptance -/
theorem Once.go_never {D : Driver} {t : Int} {cfg : Config} (h : Once D c t cfg) {op : Op} {s : Nat}
    {p' : Prog Answer} {db : Tables}
    (ha : Act c cfg.clock i cfg.db.nonces db.nonces)
    (hp : ∀ k : Key, op = .useNonce k.1 k.2.1 k.2.2 → Never p') :
    Once D c t { cfg.put i (some ⟨op, s, p'⟩) with db := db } :=
  h.go ha (fun k hk => .never (hp k hk)) fun k _ hk h1 => absurd h1 (hp k hk).not_accepting

theorem adding_not_accepting (D : Driver) (k k' : Key) : ¬ accepting D k (adding D k') := by
  simp [accepting, adding, answer]

theorem checking_not_accepting (D : Driver) (k k' : Key) : ¬ accepting D k (checking D c k') := by
  simp [accepting, checking, answer]

theorem opening_not_accepting (D : Driver) (k k' : Key) : ¬ accepting D k (opening D c k') := by
  simp [accepting, opening, answer]

theorem key_inj {k k' : Key} (h : Op.useNonce k.1 k.2.1 k.2.2 = .useNonce k'.1 k'.2.1 k'.2.2) : k = k' := by
  obtain ⟨a, b, d⟩ := k
  obtain ⟨a', b', d'⟩ := k'
  simp only [Op.useNonce.injEq] at h
  obtain ⟨rfl, rfl, rfl⟩ := h
  rfl

/-- a client leaves -/
theorem Once.leave {D : Driver} {t : Int} {cfg : Config} (h : Once D c t cfg) {db : Tables} {ret : List Returned}
    (ha : Act c cfg.clock i cfg.db.nonces db.nonces)
    (hr : ∀ k : Key, k.2.1 = t → accepted { cfg with returned := ret } k.1 k.2.1 k.2.2 = accepted cfg k.1 k.2.1 k.2.2 ∨
      (accepted { cfg with returned := ret } k.1 k.2.1 k.2.2 = accepted cfg k.1 k.2.1 k.2.2 + 1 ∧
        Accepting D cfg i k ∧ Taken c cfg.clock cfg.db.nonces k)) :
    Once D c t { cfg.put i none with db := db, returned := ret } := by
  have hacc : ∀ j k, Accepting D { cfg.put i none with db := db, returned := ret } j k →
      j ≠ i ∧ Accepting D cfg j k := by
    rintro j k ⟨cl, h1, h2, h3⟩
    rcases put_some (cfg := cfg) h1 with ⟨rfl, h4⟩ | ⟨hj, h4⟩
    · cases h4
    · exact ⟨hj, cl, h4, h2, h3⟩
  have hcount : ∀ k : Key, accepted { cfg.put i none with db := db, returned := ret } k.1 k.2.1 k.2.2 =
      accepted { cfg with returned := ret } k.1 k.2.1 k.2.2 := fun _ => rfl
  refine ⟨ha.old, ?_, fun j1 j2 k hk h1 h2 => h.one j1 j2 k hk (hacc j1 k h1).2 (hacc j2 k h2).2, ?_, ?_⟩
  · intro j cl k h1 h2
    rcases put_some (cfg := cfg) h1 with ⟨rfl, h4⟩ | ⟨hj, h4⟩
    · cases h4
    · exact (h.phase j cl k h4 h2).act ha hj
  · intro k ht hk
    rw [hcount] at hk
    rcases hr k ht with h1 | ⟨-, h1, h2⟩
    · obtain ⟨h3, h4⟩ := h.told k ht (by omega)
      exact ⟨ha.taken k h3, fun j hj => h4 j (hacc j k hj).2⟩
    · exact ⟨ha.taken k h2, fun j hj => (hacc j k hj).1 (h.one j i k ht (hacc j k hj).2 h1)⟩
  · intro k ht
    rw [hcount]
    rcases hr k ht with h1 | ⟨h1, h2, -⟩
    · have := h.once k ht
      omega
    · have : ¬ 0 < accepted cfg k.1 k.2.1 k.2.2 := fun h0 => (h.told k ht h0).2 i h2
      omega

theorem accepted_cons (cfg : Config) (op : Op) (s : Nat) (r : Outcome) (k : Key) :
    accepted { cfg with returned := (op, s, r) :: cfg.returned } k.1 k.2.1 k.2.2 =
      accepted cfg k.1 k.2.1 k.2.2 + if op = .useNonce k.1 k.2.1 k.2.2 ∧ r = .ok (.bool true) then 1 else 0 := by
  simp [accepted, List.countP_cons]

theorem once_step {D : Driver} {t : Int} {cfg cfg' : Config} (ha : Always D c cfg)
    (h : Once D c t cfg) (hs : Step D c (InTime D c t) cfg cfg') : Once D c t cfg' := by
  cases hs with
  | tick t' ht =>
    exact ⟨fun e he hd => (h.old e he hd).mono ht, fun i cl k h1 h2 => (h.phase i cl k h1 h2).mono ht, h.one,
      fun k hk h0 => ⟨(h.told k hk h0).1.mono ht, (h.told k hk h0).2⟩, h.once⟩
  | start i op hi =>
    have := h.go (i := i) (op := op) (s := cfg.clock) (p' := program D c op) (act_same h.old)
      (fun k hk => by subst hk; rw [program_useNonce]; exact .opening)
      (fun k _ hk h1 => by subst hk; rw [program_useNonce] at h1; exact absurd h1 (opening_not_accepting D k k))
    exact ⟨this.old, this.phase, this.one, this.told, this.once⟩
  | time i op s k hi =>
    refine h.go (act_same h.old) (fun n hn => ?_) (fun n ht hn h1 => ?_)
    · have hp := h.phase i _ n hi hn
      simp only at hp
      generalize hq : Prog.time k = q at hp
      cases hp with
      | checking hc =>
        simp only [checking, Prog.time.injEq] at hq
        subst hq
        dsimp only
        split
        · exact .never (never_false D n)
        · exact .adding hc
      | never h => subst hq; exact .never (h _)
      | _ => cases hq
    · exfalso
      have hp := h.phase i _ n hi hn
      simp only at hp
      generalize hq : Prog.time k = q at hp
      cases hp with
      | checking hc =>
        simp only [checking, Prog.time.injEq] at hq
        subst hq
        dsimp only at h1
        split at h1
        · exact (never_false D n).not_accepting h1
        · exact adding_not_accepting D n n h1
      | never h => subst hq; exact (h _).not_accepting h1
      | _ => cases hq
  | query i op s q k hi =>
    refine h.go_never (act_same h.old) fun n hn => ?_
    have hp := h.phase i _ n hi hn
    simp only at hp
    generalize hq : Prog.query q k = q at hp
    cases hp with
    | never h => subst hq; exact h _
    | _ => cases hq
  | queryFails i op s q k e db hi hd =>
    refine h.go_never (act_failed h.old hd) fun n hn => ?_
    have hp := h.phase i _ n hi hn
    simp only at hp
    generalize hq : Prog.query q k = q at hp
    cases hp with
    | never h => subst hq; exact h _
    | _ => cases hq
  | exec i op s st k r db hi hal hx =>
    have hdo := ((ha.progs _ _ hi).2 _ (.refl _)).1
    have hact := act_perform (now := cfg.clock) rfl hdo h.old hx
    have key : ∀ n : Key, op = .useNonce n.1 n.2.1 n.2.2 → Never (k r) ∨
        (k r = answer D n true ∧ (⟨n, some i, none⟩ : Entry Key) ∈ db.nonces ∧
          (n.2.1 = t → accepted cfg n.1 n.2.1 n.2.2 = 0 ∧ ∀ j, j ≠ i → ¬ Accepting D cfg j n)) := by
      intro n hn
      have hp := h.phase i _ n hi hn
      simp only at hp
      generalize hq : Prog.exec st k = q at hp
      cases hp with
      | adding hc =>
        simp only [adding, Prog.exec.injEq] at hq
        obtain ⟨rfl, rfl⟩ := hq
        simp only [Stmt.perform, Option.map_eq_some_iff, Prod.mk.injEq] at hx
        obtain ⟨⟨l, b⟩, hl, hr, rfl⟩ := hx
        obtain ⟨hheld, ⟨rfl, rfl, -⟩ | ⟨rfl, rfl, hseen⟩⟩ := insert_some hl
        · left
          rw [if_neg (by simp)] at hr
          subst hr
          dsimp only
          split
          · exact never_false D n
          · intro r
            cases r <;> exact never_caught _ _ _
        · right
          rw [if_pos rfl] at hr
          subst hr
          refine ⟨rfl, List.mem_append_right _ (List.mem_singleton.2 rfl), fun ht => ?_⟩
          have hover : ¬ Over c cfg.clock n := by
            have hw : c.within 18000 cfg.clock n.2.1 := ht ▸ hal n ht hn rfl
            have := hw.1
            have e : Nonce.SKEW = 18000 := rfl
            simp only [Over, e]
            omega
          have hself : sameNonce D.backend n n = true := (sameNonce_key _ n n).2 rfl
          have hfree : ¬ Taken c cfg.clock cfg.db.nonces n := by
            rintro (⟨e, he, h1, h2⟩ | h1)
            · have h3 := hseen e he (by rw [h1]; exact hself)
              have : e.seen i = true := seen_iff.2 ⟨.inl h2, (hc e he).2⟩
              rw [this] at h3
              cases h3
            · exact hover h1
          refine ⟨?_, ?_⟩
          · exact Nat.eq_zero_of_not_pos fun h0 => hfree (h.told n ht h0).1
          · rintro j hj ⟨cl, h1, h2, h3⟩
            have hp := h.phase j cl n h1 h2
            rcases h3 with h3 | h3
            · rw [h3] at hp
              generalize hq : answer D n true = q at hp
              cases hp with
              | answer hm =>
                have := not_held.1 (hheld _ hm hself)
                simp [hj] at this
              | never h => subst hq; exact h.not_accepting (D := D) (k := n) (.inl rfl)
              | _ => cases hq
            · rw [h3] at hp
              generalize hq : (Prog.done (.ok (.bool true)) : Prog Answer) = q at hp
              cases hp with
              | done ht => exact hfree ht
              | never h => subst hq; exact h rfl
              | _ => cases hq
      | never h => subst hq; exact .inl (h _)
      | _ => cases hq
    refine h.go hact (fun n hn => ?_) (fun n ht hn h1 => ?_)
    · rcases key n hn with h2 | ⟨h2, h3, -⟩
      · exact .never h2
      · rw [h2]
        exact .answer h3
    · rcases key n hn with h2 | ⟨-, -, h3⟩
      · exact absurd h1 h2.not_accepting
      · exact .inr (h3 ht)
  | execFails i op s st k e db hi hd =>
    refine h.go_never (act_failed h.old hd) fun n hn => ?_
    have hp := h.phase i _ n hi hn
    simp only at hp
    generalize hq : Prog.exec st k = q at hp
    cases hp with
    | adding hc =>
      simp only [adding, Prog.exec.injEq] at hq
      obtain ⟨rfl, rfl⟩ := hq
      dsimp only
      split
      · exact never_false D n
      · intro r
        cases r <;> exact never_caught _ _ _
    | never h => subst hq; exact h _
    | _ => cases hq
  | rollback i op s k hi =>
    refine h.go (act_rollback h.old) (fun n hn => ?_) (fun n ht hn h1 => ?_)
    · have hp := h.phase i _ n hi hn
      simp only at hp
      generalize hq : Prog.rollback k = q at hp
      cases hp with
      | opening =>
        simp only [opening, Prog.rollback.injEq] at hq
        subst hq
        exact .checking (rollback_clean _ _)
      | never h => subst hq; exact .never (h _)
      | _ => cases hq
    · exfalso
      have hp := h.phase i _ n hi hn
      simp only at hp
      generalize hq : Prog.rollback k = q at hp
      cases hp with
      | opening =>
        simp only [opening, Prog.rollback.injEq] at hq
        subst hq
        exact checking_not_accepting D n n h1
      | never h => subst hq; exact (h _).not_accepting h1
      | _ => cases hq
  | rollbackFails i op s k e db hi hd =>
    refine h.go_never (act_failed h.old hd) fun n hn => ?_
    have hp := h.phase i _ n hi hn
    simp only at hp
    generalize hq : Prog.rollback k = q at hp
    cases hp with
    | opening =>
      simp only [opening, Prog.rollback.injEq] at hq
      subst hq
      exact never_caught _ _ _
    | never h => subst hq; exact h _
    | _ => cases hq
  | commit i op s k hi =>
    refine h.go (act_commit h.old) (fun n hn => ?_) (fun n ht hn h1 => ?_)
    · have hp := h.phase i _ n hi hn
      simp only at hp
      generalize hq : Prog.commit k = q at hp
      cases hp with
      | answer hm =>
        simp only [answer, Prog.commit.injEq] at hq
        subst hq
        refine .done (.inl ⟨⟨n, none, none⟩, commit_mem.2 ⟨_, hm, by simp, .inl ⟨rfl, rfl⟩⟩, rfl, rfl⟩)
      | never h => subst hq; exact .never (h _)
      | _ => cases hq
    · have hp := h.phase i _ n hi hn
      simp only at hp
      generalize hq : Prog.commit k = q at hp
      cases hp with
      | answer hm => exact .inl ⟨_, hi, hn, .inl hq⟩
      | never h => subst hq; exact absurd h1 (h _).not_accepting
      | _ => cases hq
  | commitFails i op s k e db hi hd =>
    refine h.go_never (act_failed h.old hd) fun n hn => ?_
    have hp := h.phase i _ n hi hn
    simp only at hp
    generalize hq : Prog.commit k = q at hp
    cases hp with
    | answer hm =>
      simp only [answer, Prog.commit.injEq] at hq
      subst hq
      exact never_caught _ _ _
    | never h => subst hq; exact h _
    | _ => cases hq
  | commitUnheard i op s k e hi =>
    refine h.go_never (act_commit h.old) fun n hn => ?_
    have hp := h.phase i _ n hi hn
    simp only at hp
    generalize hq : Prog.commit k = q at hp
    cases hp with
    | answer hm =>
      simp only [answer, Prog.commit.injEq] at hq
      subst hq
      exact never_caught _ _ _
    | never h => subst hq; exact h _
    | _ => cases hq
  | finish i op s r hi =>
    refine h.leave (i := i) (db := cfg.db) (act_same h.old) fun k _ => ?_
    rw [accepted_cons]
    split
    · next h1 =>
      right
      obtain ⟨rfl, rfl⟩ := h1
      refine ⟨rfl, ⟨_, hi, rfl, .inr rfl⟩, ?_⟩
      have hp := h.phase i _ k hi rfl
      simp only at hp
      generalize hq : (Prog.done (.ok (.bool true)) : Prog Answer) = q at hp
      cases hp with
      | done ht => exact ht
      | never h => subst hq; exact absurd rfl h
      | _ => cases hq
    · exact .inl rfl
  | crash i => exact h.leave (i := i) (act_rollback h.old) (ret := cfg.returned) fun k _ => .inl rfl

theorem once {D : Driver} {t : Int} {cfg : Config} (h : Reachable D c (InTime D c t) cfg) : Once D c t cfg := by
  induction h with
  | init =>
    exact ⟨fun e he => by simp [Config.init, Tables.empty] at he, fun i cl k h => by simp [Config.init] at h,
      fun i j k _ ⟨cl, h, _⟩ => by simp [Config.init] at h, fun k _ h => by simp [accepted, Config.init] at h,
      fun k _ => by simp [accepted, Config.init]⟩
  | step hr hs ih => exact once_step (always hr) ih hs

end SqlConc
