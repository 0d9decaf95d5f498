import Verif.Lemmas.SqlConc
/-! # Several clients of an SQL store: an association that was stored stays -/

namespace SqlConc
open Py Association Store SqlStore SqlRows Spec

/-- nobody calls an operation on the association but to store it, and it has not expired -/
structure Left (D : Driver) (c : Clock) (url : Str) (a : Assoc) (cfg : Config) : Prop where
  only : ∀ op ∈ cfg.started, Touches D.backend url a.handle op → op = .storeAssociation url a
  alive : ¬ expired (c.seconds cfg.clock) a

/-- the row is committed -/
def Has (r : Str × Assoc) (l : List (Entry (Str × Assoc))) : Prop := ∃ e ∈ l, e.row = r ∧ e.ins = none

/-- whoever deletes the row writes it again -/
def Replaced (r : Str × Assoc) (l : List (Entry (Str × Assoc))) : Prop :=
  ∀ e ∈ l, e.row = r → ∀ i, e.del = some i → (⟨r, some i, none⟩ : Entry (Str × Assoc)) ∈ l

/-- what a client may do to the table -/
structure Keeps (r : Str × Assoc) (i : Nat) (l l' : List (Entry (Str × Assoc))) : Prop where
  has : Has r l → Has r l'
  replaced : Replaced r l'
  clean : ∀ j, j ≠ i → Clean j l → Clean j l'
  mine : ∀ j, j ≠ i → (⟨r, some j, none⟩ : Entry (Str × Assoc)) ∈ l → (⟨r, some j, none⟩ : Entry (Str × Assoc)) ∈ l'

variable {r : Str × Assoc} {i : Nat} {l l' : List (Entry (Str × Assoc))}

theorem keeps_same (h : Replaced r l) : Keeps r i l l := ⟨id, h, fun _ _ h => h, fun _ _ h => h⟩

theorem keeps_rollback (h : Replaced r l) : Keeps r i l (SqlRows.rollback i l) where
  has := by
    rintro ⟨e, he, h1, h2⟩
    cases hd : e.del == some i with
    | true => exact ⟨_, rollback_mem.2 ⟨e, he, by simp [h2], .inl ⟨eq_of_beq hd, rfl⟩⟩, h1, h2⟩
    | false => exact ⟨_, rollback_mem.2 ⟨e, he, by simp [h2], .inr ⟨by simpa using hd, rfl⟩⟩, h1, h2⟩
  replaced e' he' h1 j hj := by
    obtain ⟨e, he, -, ⟨-, rfl⟩ | ⟨h2, rfl⟩⟩ := rollback_mem.1 he'
    · simp at hj
    · have hji : j ≠ i := by
        rintro rfl
        exact h2 hj
      exact rollback_mem.2 ⟨_, h _ he h1 j hj, by simpa using hji, .inr ⟨by simp, rfl⟩⟩
  clean j _ hc := hc.rollback i
  mine j hj hk := rollback_mem.2 ⟨_, hk, by simpa using hj, .inr ⟨by simp, rfl⟩⟩

theorem keeps_commit (h : Replaced r l) : Keeps r i l (SqlRows.commit i l) where
  has := by
    rintro ⟨e, he, h1, h2⟩
    cases hd : e.del == some i with
    | true =>
      exact ⟨⟨r, none, none⟩, commit_mem.2 ⟨_, h e he h1 i (eq_of_beq hd), by simp, .inl ⟨rfl, rfl⟩⟩, rfl, rfl⟩
    | false => exact ⟨e, commit_mem.2 ⟨e, he, by simpa using hd, .inr ⟨by simp [h2], rfl⟩⟩, h1, h2⟩
  replaced e' he' h1 j hj := by
    have : ∀ e ∈ l, e.del ≠ some i → e.row = r → e.del = some j →
        (⟨r, some j, none⟩ : Entry (Str × Assoc)) ∈ SqlRows.commit i l := by
      intro e he h2 h3 h4
      have hji : j ≠ i := by
        rintro rfl
        exact h2 h4
      exact commit_mem.2 ⟨_, h e he h3 j h4, by simp, .inr ⟨by simpa using hji, rfl⟩⟩
    obtain ⟨e, he, h2, ⟨-, rfl⟩ | ⟨-, rfl⟩⟩ := commit_mem.1 he'
    · exact this e he h2 h1 hj
    · exact this _ he h2 h1 hj
  clean j _ hc := hc.commit i
  mine j hj hk := commit_mem.2 ⟨_, hk, by simp, .inr ⟨by simpa using hj, rfl⟩⟩

theorem unseen {j : Nat} (hj : j ≠ i) : (⟨r, some j, none⟩ : Entry (Str × Assoc)).seen i = false := by
  simp only [Entry.seen]
  simp [hj]

/-- deleting other rows -/
theorem keeps_drop {p : Str × Assoc → Bool} (h : Replaced r l) (hp : p r = false) : Keeps r i l (drop i p l) where
  has := by
    rintro ⟨e, he, h1, h2⟩
    exact ⟨e, drop_mem.2 ⟨e, he, .inr ⟨by rw [h1, hp, Bool.and_false], rfl⟩⟩, h1, h2⟩
  replaced e' he' h1 j hj := by
    obtain ⟨e, he, ⟨h2, -, rfl⟩ | ⟨-, rfl⟩⟩ := drop_mem.1 he'
    · dsimp only at h1
      rw [h1, hp, Bool.and_false] at h2
      cases h2
    · exact drop_mem.2 ⟨_, h _ he h1 j hj, .inr ⟨by simp [hp], rfl⟩⟩
  clean j hj hc := hc.drop fun h => hj h.symm
  mine j hj hk := drop_mem.2 ⟨_, hk, .inr ⟨by rw [unseen hj]; rfl, rfl⟩⟩

theorem keeps_append {x : Str × Assoc} (h : Replaced r l) : Keeps r i l (l ++ [⟨x, some i, none⟩]) where
  has := by
    rintro ⟨e, he, h1⟩
    exact ⟨e, List.mem_append_left _ he, h1⟩
  replaced e he h1 j hj := by
    rcases List.mem_append.1 he with he | he
    · exact List.mem_append_left _ (h e he h1 j hj)
    · obtain rfl := List.mem_singleton.1 he
      simp at hj
  clean j hj hc := hc.append fun h => hj h.symm
  mine j hj hk := List.mem_append_left _ hk

theorem keeps_replace_other {p : Str × Assoc → Bool} {x : Str × Assoc} (h : Replaced r l) (hp : p r = false) :
    Keeps r i l (drop i p l ++ [⟨x, some i, none⟩]) := by
  have h1 := keeps_drop (i := i) h hp
  have h2 := keeps_append (i := i) (x := x) h1.replaced
  exact ⟨fun h => h2.has (h1.has h), h2.replaced, fun j hj hc => h2.clean j hj (h1.clean j hj hc),
    fun j hj hm => h2.mine j hj (h1.mine j hj hm)⟩

theorem keeps_replace {p : Str × Assoc → Bool} (h : Replaced r l)
    (hw : ∀ e ∈ l, p e.row = true → e.held i = false) (hp : p r = true) :
    Keeps r i l (drop i p l ++ [⟨r, some i, none⟩]) where
  has := by
    rintro ⟨e, he, h1, h2⟩
    refine ⟨if e.seen i then { e with del := some i } else e, List.mem_append_left _ (drop_mem.2 ⟨e, he, ?_⟩), ?_, ?_⟩
    · rw [h1, hp, Bool.and_true]
      cases e.seen i with
      | true => exact .inl ⟨rfl, by simp [h2], rfl⟩
      | false => exact .inr ⟨rfl, rfl⟩
    · split <;> exact h1
    · split <;> exact h2
  replaced e' he' h1 j hj := by
    rcases List.mem_append.1 he' with he' | he'
    · obtain ⟨e, he, ⟨-, -, rfl⟩ | ⟨-, rfl⟩⟩ := drop_mem.1 he'
      · simp only [Option.some.injEq] at hj
        subst hj
        exact List.mem_append_right _ (List.mem_singleton.2 rfl)
      · have h2 := (not_held.1 (hw _ he (by rw [h1]; exact hp))).2
        rcases h2 with h2 | h2
        · simp [h2] at hj
        · rw [h2] at hj
          obtain rfl := Option.some.inj hj
          exact List.mem_append_right _ (List.mem_singleton.2 rfl)
    · obtain rfl := List.mem_singleton.1 he'
      simp at hj
  clean j hj hc := (hc.drop fun h => hj h.symm).append fun h => hj h.symm
  mine j hj hk := List.mem_append_left _ (drop_mem.2 ⟨_, hk, .inr ⟨by rw [unseen hj]; rfl, rfl⟩⟩)

theorem keeps_update {p : Str × Assoc → Bool} {f : Str × Assoc → Str × Assoc} {n : Nat} (h : Replaced r l)
    (hu : update i p f l = some (l', n)) (hf : p r = true → f r = r)
    (ho : ∀ x, p x = true → f x = r → p r = true) : Keeps r i l l' := by
  obtain ⟨-, hm, -⟩ := update_some hu
  -- entries that are not the transaction's own stay, at most marked
  have stays : ∀ e ∈ l, e.ins ≠ some i → ∃ e' ∈ l', e'.row = e.row ∧ e'.ins = e.ins ∧
      (e' = e ∨ (e.seen i && p e.row) = true) := by
    intro e he h1
    cases hs : e.seen i && p e.row with
    | true => exact ⟨_, (hm _).2 ⟨e, he, .inr (.inl ⟨hs, h1, .inl rfl⟩)⟩, rfl, rfl, .inr rfl⟩
    | false => exact ⟨e, (hm _).2 ⟨e, he, .inr (.inr ⟨hs, rfl⟩)⟩, rfl, rfl, .inl rfl⟩
  have stay : ∀ j, (⟨r, some j, none⟩ : Entry (Str × Assoc)) ∈ l → (⟨r, some j, none⟩ : Entry (Str × Assoc)) ∈ l' := by
    intro j hj
    by_cases hji : j = i
    · subst hji
      cases hs : (⟨r, some j, none⟩ : Entry (Str × Assoc)).seen j && p r with
      | true =>
        refine (hm _).2 ⟨_, hj, .inl ⟨hs, rfl, ?_⟩⟩
        rw [Bool.and_eq_true] at hs
        simp only [hf hs.2]
      | false => exact (hm _).2 ⟨_, hj, .inr (.inr ⟨hs, rfl⟩)⟩
    · exact (hm _).2 ⟨_, hj, .inr (.inr ⟨by rw [unseen hji]; rfl, rfl⟩)⟩
  refine ⟨?_, ?_, ?_, fun j _ => stay j⟩
  · rintro ⟨e, he, h1, h2⟩
    obtain ⟨e', he', h3, h4, -⟩ := stays e he (by simp [h2])
    exact ⟨e', he', h3.trans h1, h4.trans h2⟩
  · intro e' he' h1 j hj
    obtain ⟨e, he, ⟨h2, h3, rfl⟩ | ⟨h2, h3, rfl | rfl⟩ | ⟨-, rfl⟩⟩ := (hm e').1 he'
    · rw [Bool.and_eq_true] at h2
      exact absurd hj (by
        have := target h2.1 ((update_some hu).1 e he h2.1 h2.2)
        simp [this.2])
    · simp only [Option.some.injEq] at hj
      subst hj
      dsimp only at h1
      refine (hm _).2 ⟨e, he, .inr (.inl ⟨h2, h3, .inr ?_⟩)⟩
      rw [Bool.and_eq_true, h1] at h2
      rw [h1, hf h2.2]
    · simp at hj
    · exact stay j (h _ he h1 j hj)
  · intro j hj hc e' he'
    obtain ⟨e, he, ⟨-, h3, rfl⟩ | ⟨-, -, rfl | rfl⟩ | ⟨-, rfl⟩⟩ := (hm e').1 he'
    · exact hc e he
    · exact ⟨(hc e he).1, by simpa using fun h => hj h.symm⟩
    · exact ⟨by simpa using fun h => hj h.symm, by simp⟩
    · exact hc _ he

/-- rows of the key are the row -/
theorem Left.row {D : Driver} {c : Clock} {url u : Str} {a b : Assoc} {cfg : Config} (h : Left D c url a cfg)
    (hs : Op.storeAssociation u b ∈ cfg.started) (hu : D.backend.urlKey u = D.backend.urlKey url)
    (hh : b.handle = a.handle) : (u, b) = (url, a) := by
  have := h.only _ hs ⟨hu, hh⟩
  simp only [Op.storeAssociation.injEq] at this
  rw [this.1, this.2]

/-- what the statements of an operation do -/
theorem keeps_perform {D : Driver} {c : Clock} {url : Str} {a : Assoc} {cfg : Config} {op : Op} {s : Stmt}
    {db' : Tables} {x : Except PyErr Nat} (hl : Left D c url a cfg) (hop : op ∈ cfg.started)
    (hd : Does c op cfg.point s) (h : Replaced (url, a) cfg.db.assocs)
    (hx : s.perform D i cfg.db = some (x, db')) : Keeps (url, a) i cfg.db.assocs db'.assocs := by
  have st : ∀ u b, (s = .replaceAssoc u b ∨ s = .insertAssoc u b ∨ s = .updateAssoc u b) →
      op = .storeAssociation u b := by
    intro u b hs
    rcases hs with rfl | rfl | rfl <;> cases op <;> simp [Does] at hd <;> (obtain ⟨rfl, rfl⟩ := hd; rfl)
  cases s with
  | replaceAssoc u b =>
    obtain rfl := st u b (.inl rfl)
    simp only [Stmt.perform, Option.map_eq_some_iff, Prod.mk.injEq] at hx
    obtain ⟨l, hr, -, rfl⟩ := hx
    obtain ⟨hw, rfl⟩ := replace_some hr
    cases hp : sameKey D.backend u b.handle (url, a) with
    | true =>
      simp only [sameKey, Bool.and_eq_true, beq_iff_eq] at hp
      have := hl.row hop hp.1.symm hp.2.symm
      simp only [Prod.mk.injEq] at this
      obtain ⟨rfl, rfl⟩ := this
      exact keeps_replace h hw (by simp [sameKey])
    | false => exact keeps_replace_other h hp
  | insertAssoc u b =>
    simp only [Stmt.perform, Option.map_eq_some_iff, Prod.mk.injEq] at hx
    obtain ⟨⟨l, b⟩, hr, -, rfl⟩ := hx
    obtain ⟨-, ⟨-, rfl, -⟩ | ⟨-, rfl, -⟩⟩ := insert_some hr
    · exact keeps_same h
    · exact keeps_append h
  | updateAssoc u b =>
    obtain rfl := st u b (.inr (.inr rfl))
    simp only [Stmt.perform, Option.map_eq_some_iff, Prod.mk.injEq] at hx
    obtain ⟨⟨l, n⟩, hr, -, rfl⟩ := hx
    refine keeps_update h hr (fun hp => ?_) (fun x hp hx => ?_)
    · rw [isRow_iff] at hp
      have := hl.row hop (congrArg _ hp.1.symm) hp.2.symm
      simp only [Prod.mk.injEq] at this
      rw [this.2]
    · rw [isRow_iff] at hp ⊢
      rw [← hx]
      exact hp
  | removeAssoc u hd' =>
    simp only [Stmt.perform, Option.map_eq_some_iff, Prod.mk.injEq] at hx
    obtain ⟨⟨l, n⟩, hr, -, rfl⟩ := hx
    obtain ⟨-, rfl, -⟩ := delete_some hr
    refine keeps_drop h ?_
    refine Bool.eq_false_iff.2 fun hp => ?_
    rw [isRow_iff] at hp
    obtain ⟨h1, h2⟩ := hp
    dsimp only at h1 h2
    subst h1 h2
    cases op <;> simp [Does] at hd
    · obtain ⟨b, ⟨rfl, h3⟩, h4, h5⟩ := hd
      have := hl.row h4 rfl h3.symm
      simp only [Prod.mk.injEq, true_and] at this
      subst this
      exact hl.alive h5
    · obtain ⟨rfl, rfl⟩ := hd
      have := hl.only _ hop ⟨rfl, rfl⟩
      cases this
  | cleanAssocs t =>
    simp only [Stmt.perform, Option.map_eq_some_iff, Prod.mk.injEq] at hx
    obtain ⟨⟨l, n⟩, hr, -, rfl⟩ := hx
    obtain ⟨-, rfl, -⟩ := delete_some hr
    refine keeps_drop (p := fun r => decide (r.2.issued + r.2.lifetime < t)) h ?_
    refine Bool.eq_false_iff.2 fun hp => ?_
    simp only [decide_eq_true_eq] at hp
    cases op <;> simp [Does] at hd
    apply hl.alive
    simp only [expired, Config.point] at *
    omega
  | addNonce k =>
    simp only [Stmt.perform, Option.map_eq_some_iff, Prod.mk.injEq] at hx
    obtain ⟨⟨l, b⟩, hr, -, rfl⟩ := hx
    exact keeps_same h
  | cleanNonces t =>
    simp only [Stmt.perform, Option.map_eq_some_iff, Prod.mk.injEq] at hx
    obtain ⟨⟨l, n⟩, hr, -, rfl⟩ := hx
    exact keeps_same h

theorem keeps_failed {db db' : Tables} (h : Replaced r db.assocs) (hf : Failed i db db') :
    Keeps r i db.assocs db'.assocs := by
  cases hf with
  | same => exact keeps_same h
  | aborted => exact keeps_rollback h

/-! ## The programs of `storeAssociation` -/

def answering : Prog Answer :=
  .commit fun
    | .error e => .done (.error e)
    | .ok () => .done (.ok .nothing)

/-- a statement, and what follows -/
def storing (s : Stmt) : Prog Answer :=
  .exec s fun
    | .ok _ => answering
    | .error e => .rollback fun
      | .error e' => .done (.error e')
      | .ok () => .done (.error e)

def looking (url : Str) (a : Assoc) : Prog Answer :=
  .query ⟨url, some a.handle⟩ fun
    | .ok rows => if rows.length = 0 then storing (.insertAssoc url a) else storing (.updateAssoc url a)
    | .error e => .rollback fun
      | .error e' => .done (.error e')
      | .ok () => .done (.error e)

def first (D : Driver) (url : Str) (a : Assoc) : Prog Answer :=
  if D.backend = .postgres then looking url a else storing (.replaceAssoc url a)

def beginning (D : Driver) (url : Str) (a : Assoc) : Prog Answer :=
  .rollback fun
    | .error e => .done (.error e)
    | .ok () => first D url a

theorem caught_store (B : Backend) (url : Str) (a : Assoc) (r : Outcome) :
    caught B (.storeAssociation url a) r = r := by
  unfold caught
  split
  · next h => cases h
  · rfl

theorem program_store (D : Driver) (c : Clock) (url : Str) (a : Assoc) :
    program D c (.storeAssociation url a) = beginning D url a := by
  unfold program callInTransaction beginning
  simp only [caught_store, Prog.next]
  congr 1
  funext r
  cases r with
  | error e => rfl
  | ok x =>
    have tail : ∀ s, ((((run s >>= fun _ => pure ()) >>= fun _ => pure Answer.nothing).next atEnd).next
        fun r => .done r) = storing s := by
      intro s
      show Prog.exec _ _ = Prog.exec _ _
      congr 1
      funext r
      cases r with
      | error e =>
        show Prog.rollback _ = Prog.rollback _
        congr 1
        funext r
        cases r <;> rfl
      | ok n =>
        show Prog.commit _ = Prog.commit _
        congr 1
        funext r
        cases r <;> rfl
    simp only [body, storeAssociation, first]
    by_cases hb : D.backend = .postgres <;> simp only [hb, ↓reduceIte]
    · show Prog.query _ _ = Prog.query _ _
      congr 1
      funext r
      cases r with
      | error e =>
        show Prog.rollback _ = Prog.rollback _
        congr 1
        funext r
        cases r <;> rfl
      | ok rows =>
        by_cases h : rows.length = 0 <;> simp only [Prog.next, h, ↓reduceIte]
        · rw [← tail]
          rfl
        · rw [← tail]
          rfl
    · exact tail _

/-- a program that always raises -/
def Raises : Prog Answer → Prop
  | .done r => ∃ e, r = .error e
  | .time k => ∀ x, Raises (k x)
  | .query _ k => ∀ x, Raises (k x)
  | .exec _ k => ∀ x, Raises (k x)
  | .rollback k => ∀ x, Raises (k x)
  | .commit k => ∀ x, Raises (k x)

theorem raises_undo (e : PyErr) : Raises (.rollback fun
    | .error e' => .done (.error e')
    | .ok () => .done (.error e)) := by
  intro x
  cases x with
  | error e' => exact ⟨e', rfl⟩
  | ok x => exact ⟨e, rfl⟩

/-- where a client is in `storeAssociation` -/
inductive Stage (D : Driver) (i : Nat) (l : List (Entry (Str × Assoc))) (r : Str × Assoc) : Prog Answer → Prop where
  | beginning : Stage D i l r (beginning D r.1 r.2)
  | first (h : Clean i l) : Stage D i l r (first D r.1 r.2)
  | replace (h : Clean i l) : Stage D i l r (storing (.replaceAssoc r.1 r.2))
  | insert (h : Clean i l) : Stage D i l r (storing (.insertAssoc r.1 r.2))
  | update (h : Clean i l) (h' : Has r l) : Stage D i l r (storing (.updateAssoc r.1 r.2))
  | answer (h : (⟨r, some i, none⟩ : Entry (Str × Assoc)) ∈ l) : Stage D i l r answering
  | done (h : Has r l) (x : Outcome) : Stage D i l r (.done x)
  | raises {p : Prog Answer} (h : Raises p) : Stage D i l r p

theorem Stage.keeps {D : Driver} {j : Nat} {p : Prog Answer} (ha : Keeps r i l l') (hj : j ≠ i)
    (h : Stage D j l r p) : Stage D j l' r p := by
  cases h with
  | beginning => exact .beginning
  | first h => exact .first (ha.clean j hj h)
  | replace h => exact .replace (ha.clean j hj h)
  | insert h => exact .insert (ha.clean j hj h)
  | update h h' => exact .update (ha.clean j hj h) (ha.has h')
  | answer h => exact .answer (ha.mine j hj h)
  | done h x => exact .done (ha.has h) x
  | raises h => exact .raises h

structure Kept (D : Driver) (r : Str × Assoc) (cfg : Config) : Prop where
  replaced : Replaced r cfg.db.assocs
  stage : ∀ i cl, cfg.clients i = some cl → cl.op = .storeAssociation r.1 r.2 → Stage D i cfg.db.assocs r cl.todo
  told : (∃ s x, (Op.storeAssociation r.1 r.2, s, Except.ok x) ∈ cfg.returned) → Has r cfg.db.assocs

/-- a step of one client -/
theorem Kept.go {D : Driver} {cfg : Config} (h : Kept D r cfg) {op : Op} {s : Nat}
    {p' : Prog Answer} {db : Tables} (ha : Keeps r i cfg.db.assocs db.assocs)
    (hp : op = .storeAssociation r.1 r.2 → Stage D i db.assocs r p') :
    Kept D r { cfg.put i (some ⟨op, s, p'⟩) with db := db } := by
  refine ⟨ha.replaced, ?_, fun hx => ha.has (h.told hx)⟩
  intro j cl h1 h2
  rcases put_some (cfg := cfg) h1 with ⟨rfl, h4⟩ | ⟨hj, h4⟩
  · obtain rfl := Option.some.inj h4
    exact hp h2
  · exact (h.stage j cl h4 h2).keeps ha hj

theorem Kept.leave {D : Driver} {cfg : Config} (h : Kept D r cfg) {db : Tables} {ret : List Returned}
    (ha : Keeps r i cfg.db.assocs db.assocs)
    (hr : ∀ s x, (Op.storeAssociation r.1 r.2, s, Except.ok x) ∈ ret →
      (Op.storeAssociation r.1 r.2, s, Except.ok x) ∈ cfg.returned ∨ Has r cfg.db.assocs) :
    Kept D r { cfg.put i none with db := db, returned := ret } := by
  refine ⟨ha.replaced, ?_, ?_⟩
  · intro j cl h1 h2
    rcases put_some (cfg := cfg) h1 with ⟨rfl, h4⟩ | ⟨hj, h4⟩
    · cases h4
    · exact (h.stage j cl h4 h2).keeps ha hj
  · rintro ⟨s, x, hx⟩
    rcases hr s x hx with h1 | h1
    · exact ha.has (h.told ⟨s, x, h1⟩)
    · exact ha.has h1

theorem Left.back {D : Driver} {c : Clock} {allowed : Config → Client → Prop} {url : Str} {a : Assoc}
    {cfg cfg' : Config} (hs : Step D c allowed cfg cfg') (h : Left D c url a cfg') : Left D c url a cfg := by
  have hst : cfg.point.Le cfg'.point := by
    cases hs with
    | tick t ht => exact ⟨ht, fun _ h => h⟩
    | start i op hi => exact ⟨Nat.le_refl _, fun _ h => List.mem_cons_of_mem _ h⟩
    | _ => exact .refl _
  exact ⟨fun op ho ht => h.only op (hst.2 op ho) ht, fun he => h.alive (expired_mono c hst.1 he)⟩

theorem kept_step {D : Driver} {c : Clock} {allowed : Config → Client → Prop} {url : Str} {a : Assoc}
    {cfg cfg' : Config} (ha : Always D c cfg) (hl : Left D c url a cfg)
    (h : Kept D (url, a) cfg) (hs : Step D c allowed cfg cfg') : Kept D (url, a) cfg' := by
  cases hs with
  | tick t ht => exact ⟨h.replaced, h.stage, h.told⟩
  | start i op hi =>
    have := h.go (i := i) (op := op) (s := cfg.clock) (p' := program D c op) (keeps_same h.replaced)
      (fun hk => by subst hk; rw [program_store]; exact .beginning)
    exact ⟨this.replaced, this.stage, this.told⟩
  | time i op s k hi =>
    refine h.go (keeps_same h.replaced) fun hop => ?_
    have hp := h.stage i _ hi hop
    simp only at hp
    generalize hq : Prog.time k = q at hp
    cases hp with
    | first hc =>
      simp only [first] at hq
      split at hq <;> cases hq
    | raises h => subst hq; exact .raises (h _)
    | _ => cases hq
  | query i op s q k hi =>
    refine h.go (keeps_same h.replaced) fun hop => ?_
    have hp := h.stage i _ hi hop
    simp only at hp
    generalize hq : Prog.query q k = q' at hp
    cases hp with
    | first hc =>
      simp only [first] at hq
      split at hq
      · simp only [looking, Prog.query.injEq] at hq
        obtain ⟨rfl, rfl⟩ := hq
        dsimp only
        split
        · exact .insert hc
        · next hne =>
          refine .update hc ?_
          obtain ⟨b, hb⟩ := List.exists_mem_of_ne_nil (Query.find ⟨url, some a.handle⟩ i cfg.db) (fun h => hne (by rw [h]; rfl))
          simp only [Query.find, SqlRows.select, List.mem_map, List.mem_filter, Bool.and_eq_true] at hb
          obtain ⟨x, ⟨e, ⟨he, hsn, hm⟩, rfl⟩, rfl⟩ := hb
          obtain ⟨h1, h2⟩ := (isRow_iff ..).1 (hm : isRow url a.handle e.row = true)
          refine ⟨e, he, hl.row (ha.rows e he) (by rw [h1]) h2, ?_⟩
          exact (seen_iff.1 hsn).1.resolve_right (hc e he).1
      · cases hq
    | raises h => subst hq; exact .raises (h _)
    | _ => cases hq
  | queryFails i op s q k e db hi hd =>
    refine h.go (keeps_failed h.replaced hd) fun hop => ?_
    have hp := h.stage i _ hi hop
    simp only at hp
    generalize hq : Prog.query q k = q' at hp
    cases hp with
    | first hc =>
      simp only [first] at hq
      split at hq
      · simp only [looking, Prog.query.injEq] at hq
        obtain ⟨rfl, rfl⟩ := hq
        exact .raises (raises_undo e)
      · cases hq
    | raises h => subst hq; exact .raises (h _)
    | _ => cases hq
  | exec i op s st k r db hi hal hx =>
    have hdo := ((ha.progs _ _ hi).2 _ (.refl _)).1
    have hkeep := keeps_perform hl (ha.progs _ _ hi).1 hdo h.replaced hx
    refine h.go hkeep fun hop => ?_
    have hp := h.stage i _ hi hop
    simp only at hp
    have go : ∀ s', Prog.exec st k = storing s' → (st = s' → ∀ n, r = .ok n →
        (⟨(url, a), some i, none⟩ : Entry (Str × Assoc)) ∈ db.assocs) → Stage D i db.assocs (url, a) (k r) := by
      intro s' hq hok
      simp only [storing, Prog.exec.injEq] at hq
      obtain ⟨h1, rfl⟩ := hq
      cases r with
      | ok n => exact .answer (hok h1 n rfl)
      | error e => exact .raises (raises_undo e)
    have rep : st = .replaceAssoc url a → ∀ n, r = .ok n →
        (⟨(url, a), some i, none⟩ : Entry (Str × Assoc)) ∈ db.assocs := by
      rintro rfl n -
      simp only [Stmt.perform, Option.map_eq_some_iff, Prod.mk.injEq] at hx
      obtain ⟨l, hr, -, rfl⟩ := hx
      obtain ⟨-, rfl⟩ := replace_some hr
      exact List.mem_append_right _ (List.mem_singleton.2 rfl)
    generalize hq : Prog.exec st k = q at hp
    cases hp with
    | first hc =>
      simp only [first] at hq
      split at hq
      · cases hq
      · exact go _ hq rep
    | replace hc => exact go _ hq rep
    | insert hc =>
      refine go _ hq ?_
      rintro rfl n rfl
      simp only [Stmt.perform, Option.map_eq_some_iff, Prod.mk.injEq] at hx
      obtain ⟨⟨l, b⟩, hr, hb, rfl⟩ := hx
      obtain ⟨-, ⟨rfl, -⟩ | ⟨-, rfl, -⟩⟩ := insert_some hr
      · simp at hb
      · exact List.mem_append_right _ (List.mem_singleton.2 rfl)
    | update hc hh =>
      refine go _ hq ?_
      rintro rfl n -
      simp only [Stmt.perform, Option.map_eq_some_iff, Prod.mk.injEq] at hx
      obtain ⟨⟨l, b⟩, hr, hb, rfl⟩ := hx
      obtain ⟨e, he, h1, h2⟩ := hh
      refine ((update_some hr).2.1 _).2 ⟨e, he, .inr (.inl ⟨?_, by simp [h2], .inr ?_⟩)⟩
      · rw [Bool.and_eq_true, h1]
        exact ⟨seen_iff.2 ⟨.inl h2, (hc e he).2⟩, (isRow_iff ..).2 ⟨rfl, rfl⟩⟩
      · rw [h1]
    | raises h => subst hq; exact .raises (h _)
    | _ => cases hq
  | execFails i op s st k e db hi hd =>
    refine h.go (keeps_failed h.replaced hd) fun hop => ?_
    have hp := h.stage i _ hi hop
    simp only at hp
    have go : ∀ s', Prog.exec st k = storing s' → Stage D i db.assocs (url, a) (k (.error e)) := by
      intro s' hq
      simp only [storing, Prog.exec.injEq] at hq
      obtain ⟨h1, rfl⟩ := hq
      exact .raises (raises_undo e)
    generalize hq : Prog.exec st k = q at hp
    cases hp with
    | first hc =>
      simp only [first] at hq
      split at hq
      · cases hq
      · exact go _ hq
    | replace hc => exact go _ hq
    | insert hc => exact go _ hq
    | update hc hh => exact go _ hq
    | raises h => subst hq; exact .raises (h _)
    | _ => cases hq
  | rollback i op s k hi =>
    refine h.go (keeps_rollback h.replaced) fun hop => ?_
    have hp := h.stage i _ hi hop
    simp only at hp
    generalize hq : Prog.rollback k = q at hp
    cases hp with
    | beginning =>
      simp only [beginning, Prog.rollback.injEq] at hq
      subst hq
      exact .first (rollback_clean _ _)
    | first hc =>
      simp only [first] at hq
      split at hq <;> cases hq
    | raises h => subst hq; exact .raises (h _)
    | _ => cases hq
  | rollbackFails i op s k e db hi hd =>
    refine h.go (keeps_failed h.replaced hd) fun hop => ?_
    have hp := h.stage i _ hi hop
    simp only at hp
    generalize hq : Prog.rollback k = q at hp
    cases hp with
    | beginning =>
      simp only [beginning, Prog.rollback.injEq] at hq
      subst hq
      exact .raises ⟨e, rfl⟩
    | first hc =>
      simp only [first] at hq
      split at hq <;> cases hq
    | raises h => subst hq; exact .raises (h _)
    | _ => cases hq
  | commit i op s k hi =>
    refine h.go (keeps_commit h.replaced) fun hop => ?_
    have hp := h.stage i _ hi hop
    simp only at hp
    generalize hq : Prog.commit k = q at hp
    cases hp with
    | first hc =>
      simp only [first] at hq
      split at hq <;> cases hq
    | answer hm =>
      simp only [answering, Prog.commit.injEq] at hq
      subst hq
      exact .done ⟨⟨(url, a), none, none⟩, commit_mem.2 ⟨_, hm, by simp, .inl ⟨rfl, rfl⟩⟩, rfl, rfl⟩ _
    | raises h => subst hq; exact .raises (h _)
    | _ => cases hq
  | commitFails i op s k e db hi hd =>
    refine h.go (keeps_failed h.replaced hd) fun hop => ?_
    have hp := h.stage i _ hi hop
    simp only at hp
    generalize hq : Prog.commit k = q at hp
    cases hp with
    | first hc =>
      simp only [first] at hq
      split at hq <;> cases hq
    | answer hm =>
      simp only [answering, Prog.commit.injEq] at hq
      subst hq
      exact .raises ⟨e, rfl⟩
    | raises h => subst hq; exact .raises (h _)
    | _ => cases hq
  | commitUnheard i op s k e hi =>
    refine h.go (keeps_commit h.replaced) fun hop => ?_
    have hp := h.stage i _ hi hop
    simp only at hp
    generalize hq : Prog.commit k = q at hp
    cases hp with
    | first hc =>
      simp only [first] at hq
      split at hq <;> cases hq
    | answer hm =>
      simp only [answering, Prog.commit.injEq] at hq
      subst hq
      exact .raises ⟨e, rfl⟩
    | raises h => subst hq; exact .raises (h _)
    | _ => cases hq
  | finish i op s r hi =>
    refine h.leave (i := i) (db := cfg.db) (keeps_same h.replaced) fun s' x hx => ?_
    rcases List.mem_cons.1 hx with hx | hx
    · right
      simp only [Prod.mk.injEq] at hx
      obtain ⟨rfl, rfl, rfl⟩ := hx
      have hp := h.stage i _ hi rfl
      simp only at hp
      generalize hq : (Prog.done (.ok x) : Prog Answer) = q at hp
      cases hp with
      | first hc =>
        simp only [first] at hq
        split at hq <;> cases hq
      | done hh => exact hh
      | raises h =>
        subst hq
        obtain ⟨e, he⟩ := h
        cases he
      | _ => cases hq
    · exact .inl hx
  | crash i => exact h.leave (i := i) (keeps_rollback h.replaced) (ret := cfg.returned) fun _ _ h => .inl h

theorem kept {D : Driver} {c : Clock} {allowed : Config → Client → Prop} {url : Str} {a : Assoc}
    {cfg : Config} (h : Reachable D c allowed cfg) (hl : Left D c url a cfg) : Kept D (url, a) cfg := by
  induction h with
  | init =>
    exact ⟨fun e he => by simp [Config.init, Tables.empty] at he, fun i cl h => by simp [Config.init] at h,
      fun ⟨s, x, h⟩ => by simp [Config.init] at h⟩
  | step hr hs ih => exact kept_step (always hr) (hl.back hs) (ih (hl.back hs)) hs

end SqlConc
