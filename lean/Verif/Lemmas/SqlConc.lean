import Verif.Lemmas.SqlRows
import Verif.Lemmas.SqlStore
import Verif.Spec.SqlConc
/-! # Several clients of an SQL store: what programs do, and what is always true -/

namespace SqlConc
open Py Association Store SqlStore SqlRows Spec

/-- what programs learn from: the time, and the operations called so far -/
structure Point where
  clock : Nat
  started : List Op

def Point.Le (w w' : Point) : Prop := w.clock ≤ w'.clock ∧ ∀ op ∈ w.started, op ∈ w'.started

theorem Point.Le.refl (w : Point) : w.Le w := ⟨Nat.le_refl _, fun _ h => h⟩

theorem Point.Le.trans {w w' w'' : Point} (h : w.Le w') (h' : w'.Le w'') : w.Le w'' :=
  ⟨Nat.le_trans h.1 h'.1, fun o ho => h'.2 o (h.2 o ho)⟩

def Config.point (cfg : Config) : Point := ⟨cfg.clock, cfg.started⟩

/-- what a program may ask from point `w` on, and with what it may end -/
def Good (W : Point → Stmt → Prop) (F : Point → Except PyErr α → Prop) : Point → Prog α → Prop
  | w, .done r => ∀ w', w.Le w' → F w' r
  | w, .time k => ∀ w', w.Le w' → Good W F w' (k w'.clock)
  | w, .query q k => ∀ w', w.Le w' → (∀ l, (∀ a ∈ l, q.matches (q.url, a) = true ∧
      Op.storeAssociation q.url a ∈ w'.started) → Good W F w' (k (.ok l))) ∧ ∀ e, Good W F w' (k (.error e))
  | w, .exec s k => ∀ w', w.Le w' → W w' s ∧ ∀ r, Good W F w' (k r)
  | w, .rollback k => ∀ w', w.Le w' → ∀ r, Good W F w' (k r)
  | w, .commit k => ∀ w', w.Le w' → ∀ r, Good W F w' (k r)

theorem Good.mono {W : Point → Stmt → Prop} {F : Point → Except PyErr α → Prop} {w w' : Point} {p : Prog α}
    (h : Good W F w p) (hw : w.Le w') : Good W F w' p := by
  cases p <;> exact fun w2 h2 => h w2 (hw.trans h2)

theorem Good.next {W : Point → Stmt → Prop} {F : Point → Except PyErr α → Prop}
    {F' : Point → Except PyErr β → Prop} {w : Point} {p : Prog α} {f : Except PyErr α → Prog β}
    (h : Good W F w p) (hf : ∀ w', w.Le w' → ∀ r, F w' r → Good W F' w' (f r)) : Good W F' w (p.next f) := by
  induction p generalizing w with
  | done r => exact hf w (.refl w) r (h w (.refl w))
  | time k ih => exact fun w' hw => ih _ (h w' hw) fun w2 h2 => hf w2 (hw.trans h2)
  | query q k ih =>
    exact fun w' hw => ⟨fun l hl => ih _ ((h w' hw).1 l hl) fun w2 h2 => hf w2 (hw.trans h2),
      fun e => ih _ ((h w' hw).2 e) fun w2 h2 => hf w2 (hw.trans h2)⟩
  | exec s k ih =>
    exact fun w' hw => ⟨(h w' hw).1, fun r => ih _ ((h w' hw).2 r) fun w2 h2 => hf w2 (hw.trans h2)⟩
  | rollback k ih => exact fun w' hw r => ih _ (h w' hw r) fun w2 h2 => hf w2 (hw.trans h2)
  | commit k ih => exact fun w' hw r => ih _ (h w' hw r) fun w2 h2 => hf w2 (hw.trans h2)

/-- a program that is good when it ends well; it may always raise -/
theorem Good.bind {W : Point → Stmt → Prop} {F : Point → α → Prop}
    {F' : Point → β → Prop} {w : Point} {p : Prog α} {f : α → Prog β}
    (h : Good W (fun w r => ∀ a, r = .ok a → F w a) w p)
    (hf : ∀ w', w.Le w' → ∀ a, F w' a → Good W (fun w r => ∀ b, r = .ok b → F' w b) w' (f a)) :
    Good W (fun w r => ∀ b, r = .ok b → F' w b) w (p >>= f) := by
  refine h.next fun w' hw r hr => ?_
  cases r with
  | ok a => exact hf w' hw a (hr a rfl)
  | error e => exact fun _ _ b hb => by cases hb

theorem good_ok {W : Point → Stmt → Prop} {F : Point → α → Prop} {w : Point} {a : α}
    (h : ∀ w', w.Le w' → F w' a) : Good W (fun w r => ∀ b, r = .ok b → F w b) w (.done (.ok a)) :=
  fun w' hw b hb => by cases hb; exact h w' hw

theorem good_error {W : Point → Stmt → Prop} {F : Point → α → Prop} {w : Point} {e : PyErr} :
    Good W (fun w r => ∀ b, r = .ok b → F w b) w (.done (.error e)) :=
  fun _ _ b hb => by cases hb

theorem good_run {W : Point → Stmt → Prop} {w : Point} {s : Stmt} (h : ∀ w', w.Le w' → W w' s) :
    Good W (fun _ r => ∀ b, r = .ok b → True) w (run s) :=
  fun w' hw => ⟨h w' hw, fun _ _ _ _ _ => trivial⟩

/-- the statements an operation sends -/
def Does (c : Clock) (op : Op) (w : Point) (s : Stmt) : Prop :=
  match op with
  | .storeAssociation u a => s = .replaceAssoc u a ∨ s = .insertAssoc u a ∨ s = .updateAssoc u a
  | .getAssociation u _ => ∃ a, s = .removeAssoc u a.handle ∧ Op.storeAssociation u a ∈ w.started ∧
      expired (c.seconds w.clock) a
  | .removeAssociation u h => s = .removeAssoc u h
  | .useNonce u t x => s = .addNonce (u, t, x)
  | .cleanupNonces => ∃ l, s = .cleanNonces l ∧ l ≤ c.seconds w.clock - Nonce.SKEW
  | .cleanupAssociations => ∃ l, s = .cleanAssocs l ∧ l ≤ c.seconds w.clock

/-- what a lookup may answer -/
def Gives (c : Clock) (op : Op) (since : Nat) (w : Point) (r : Outcome) : Prop :=
  ∀ u h a, op = .getAssociation u h → r = .ok (.assoc (some a)) → MayAnswer c w.started u h since a

theorem Gives.mono {c : Clock} {op : Op} {since : Nat} {w w' : Point} {r : Outcome} (h : Gives c op since w r)
    (hw : w.Le w') : Gives c op since w' r := by
  intro u hd a e1 e2
  obtain ⟨h1, h2⟩ := h u hd a e1 e2
  exact ⟨hw.2 _ h1, h2⟩

theorem seconds_mono (c : Clock) {t t' : Nat} (h : t ≤ t') : c.seconds t ≤ c.seconds t' := by
  simp only [Clock.seconds]
  exact Int.ediv_le_ediv (by have := c.pos; omega) (by omega)

theorem expired_mono (c : Clock) {t t' : Nat} {a : Assoc} (h : t ≤ t') (he : expired (c.seconds t) a) :
    expired (c.seconds t') a := by
  have := seconds_mono c h
  simp only [expired] at *
  omega

theorem good_keepRow (c : Clock) (u : Str) (hd : Option Str) (since : Nat) (w : Point) (hs : since ≤ w.clock) (row : Assoc)
    (hr : Op.storeAssociation u row ∈ w.started) (hh : ∀ h, hd = some h → row.handle = h) :
    Good (Does c (.getAssociation u hd)) (fun w r => ∀ l, r = .ok l → ∀ a ∈ l, MayAnswer c w.started u hd since a)
      w (keepRow c u row) := by
  unfold keepRow
  split
  · exact good_error
  · next a ha =>
    have : a = row := by
      unfold Assoc.new at ha
      split at ha
      · cases ha; rfl
      · cases ha
    subst this
    intro w1 h1
    dsimp only
    split
    · next he =>
      have he : expired (c.seconds w1.clock) a := by
        simp only [Assoc.getExpiresIn, beq_iff_eq] at he
        simp only [expired]
        omega
      refine Good.bind (F := fun _ _ => True) (Good.bind (F := fun _ _ => True) (good_run fun w2 h2 =>
        ⟨a, rfl, h2.2 _ (h1.2 _ hr), expired_mono c h2.1 he⟩)
        fun _ _ _ _ => good_ok fun _ _ => trivial) fun _ _ _ _ => good_ok fun _ _ a ha => by cases ha
    · next he =>
      refine good_ok fun w2 h2 x hx => ?_
      obtain rfl := List.mem_singleton.1 hx
      refine ⟨h2.2 _ (h1.2 _ hr), hh, fun hex => he ?_⟩
      have := expired_mono c (Nat.le_trans hs h1.1) hex
      simp only [Assoc.getExpiresIn, beq_iff_eq]
      simp only [expired] at this
      omega

theorem good_keepRows (c : Clock) (u : Str) (hd : Option Str) (since : Nat) (rows : List Assoc) (w : Point)
    (hs : since ≤ w.clock) (hr : ∀ a ∈ rows, Op.storeAssociation u a ∈ w.started)
    (hh : ∀ a ∈ rows, ∀ h, hd = some h → a.handle = h) :
    Good (Does c (.getAssociation u hd)) (fun w r => ∀ l, r = .ok l → ∀ a ∈ l, MayAnswer c w.started u hd since a)
      w (keepRows c u rows) := by
  induction rows generalizing w with
  | nil => exact good_ok fun _ _ a ha => by cases ha
  | cons r rs ih =>
    refine Good.bind (good_keepRow c u hd since w hs r (hr r (List.mem_cons_self ..)) (hh r (List.mem_cons_self ..)))
      fun w1 h1 x hx => ?_
    refine Good.bind (ih w1 (Nat.le_trans hs h1.1) (fun a ha => h1.2 _ (hr a (List.mem_cons_of_mem _ ha)))
      fun a ha => hh a (List.mem_cons_of_mem _ ha)) fun w2 h2 y hy => ?_
    refine good_ok fun w3 h3 a ha => ?_
    rcases List.mem_append.1 ha with ha | ha
    · obtain ⟨q1, q2⟩ := hx a ha
      exact ⟨h3.2 _ (h2.2 _ q1), q2⟩
    · obtain ⟨q1, q2⟩ := hy a ha
      exact ⟨h3.2 _ q1, q2⟩

theorem good_query {W : Point → Stmt → Prop} {w : Point} (u : Str) (hd : Option Str) :
    Good W (fun w r => ∀ l, r = .ok l → ∀ a ∈ l, Op.storeAssociation u a ∈ w.started ∧
      ∀ h, hd = some h → a.handle = h) w (Prog.query ⟨u, hd⟩ .done) := by
  intro w1 h1
  refine ⟨fun l hl => good_ok fun w2 h2 a ha => ?_, fun e => good_error⟩
  obtain ⟨q1, q2⟩ := hl a ha
  refine ⟨h2.2 _ q2, fun h hh => ?_⟩
  subst hh
  exact ((isRow_iff ..).1 q1).2

theorem good_body (D : Driver) (c : Clock) (op : Op) (w : Point) (since : Nat) (hs : since ≤ w.clock) :
    Good (Does c op) (fun w r => ∀ x, r = .ok x → Gives c op since w (.ok x)) w (body D c op) := by
  have other : ∀ {op : Op} {w : Point} {x : Answer}, (∀ u h, op ≠ .getAssociation u h) →
      Good (Does c op) (fun w r => ∀ x, r = .ok x → Gives c op since w (.ok x)) w (.done (.ok x)) :=
    fun ho => good_ok fun _ _ u h a e _ => absurd e (ho u h)
  cases op with
  | storeAssociation u a =>
    refine Good.bind (F := fun _ _ => True) ?_ fun _ _ _ _ => other (by simp)
    unfold storeAssociation
    split
    · refine Good.bind (good_query u (some a.handle)) fun w1 h1 rows _ => ?_
      split
      · exact Good.bind (good_run fun _ _ => .inr (.inl rfl)) fun _ _ _ _ => good_ok fun _ _ => trivial
      · exact Good.bind (good_run fun _ _ => .inr (.inr rfl)) fun _ _ _ _ => good_ok fun _ _ => trivial
    · exact Good.bind (good_run fun _ _ => .inl rfl) fun _ _ _ _ => good_ok fun _ _ => trivial
  | getAssociation u hd =>
    refine Good.bind (F := fun w r => ∀ a, r = some a → MayAnswer c w.started u hd since a) ?_
      fun w1 h1 r hr => good_ok fun w2 h2 u' h' a e1 e2 => ?_
    · refine Good.bind (good_query u hd) fun w1 h1 rows hrows => ?_
      refine Good.bind (good_keepRows c u hd since rows w1 (Nat.le_trans hs h1.1) (fun a ha => (hrows a ha).1)
        fun a ha => (hrows a ha).2) fun w2 h2 l hl => ?_
      intro w3 h3 r hr a ha
      obtain ⟨q1, q2⟩ := hl a ((latest_ok l r hr).2 a ha).1
      exact ⟨h3.2 _ q1, q2⟩
    · cases e1
      cases e2
      obtain ⟨q1, q2⟩ := hr a rfl
      exact ⟨h2.2 _ q1, q2⟩
  | removeAssociation u h =>
    refine Good.bind (F := fun _ _ => True) ?_ fun _ _ _ _ => other (by simp)
    exact Good.bind (good_run fun _ _ => rfl) fun _ _ _ _ => good_ok fun _ _ => trivial
  | useNonce u t s =>
    refine Good.bind (F := fun _ _ => True) ?_ fun _ _ _ _ => other (by simp)
    intro w1 h1
    dsimp only
    split
    · exact good_ok fun _ _ => trivial
    · refine fun w2 h2 => ⟨rfl, fun r => ?_⟩
      cases r with
      | ok n => exact good_ok fun _ _ => trivial
      | error e =>
        dsimp only
        split
        · exact good_ok fun _ _ => trivial
        · exact good_error
  | cleanupNonces =>
    refine Good.bind (F := fun _ _ => True) ?_ fun _ _ _ _ => other (by simp)
    exact fun w1 h1 => good_run fun w2 h2 => ⟨_, rfl, by have := seconds_mono c h2.1; omega⟩
  | cleanupAssociations =>
    refine Good.bind (F := fun _ _ => True) ?_ fun _ _ _ _ => other (by simp)
    exact fun w1 h1 => good_run fun w2 h2 => ⟨_, rfl, seconds_mono c h2.1⟩

theorem caught_gives {c : Clock} {B : Backend} {op : Op} {since : Nat} {w : Point} {r : Outcome}
    (h : ∀ x, r = .ok x → Gives c op since w (.ok x)) : Gives c op since w (caught B op r) := by
  intro u hd a e1 e2
  subst e1
  cases r with
  | ok x => exact h x rfl u hd a rfl e2
  | error e => cases e2

theorem good_program (D : Driver) (c : Clock) (op : Op) (w : Point) (since : Nat) (hs : since ≤ w.clock) :
    Good (Does c op) (Gives c op since) w (program D c op) := by
  refine Good.next (F := fun w r => ∀ x, r = .ok x → Gives c op since w (.ok x)) ?_
    fun w1 h1 r hr w2 h2 => (caught_gives hr).mono h2
  intro w1 h1 r
  cases r with
  | error e => exact good_error
  | ok x =>
    dsimp only
    refine (good_body D c op w1 since (Nat.le_trans hs h1.1)).next fun w2 h2 r hr => ?_
    cases r with
    | error e =>
      intro w3 h3 r
      cases r with
      | error e => exact good_error
      | ok x => exact good_error
    | ok a =>
      intro w3 h3 r
      cases r with
      | error e => exact good_error
      | ok x => exact good_ok fun w4 h4 => (hr a rfl).mono (h3.trans h4)

/-! ## What statements do to the tables -/

def assocKey (B : Backend) (r : Str × Assoc) : Bytes × Str := (B.urlKey r.1, r.2.handle)

def nonceKey (B : Backend) (r : Str × Int × Str) : Bytes × Int × Str := (B.urlKey r.1, r.2)

theorem sameKey_key (B : Backend) (u : Str) (a : Assoc) (r : Str × Assoc) :
    sameKey B u a.handle r = true ↔ assocKey B r = assocKey B (u, a) := by
  simp [sameKey, assocKey]

theorem sameNonce_key (B : Backend) (k r : Str × Int × Str) :
    sameNonce B k r = true ↔ nonceKey B r = nonceKey B k := by
  simp only [sameNonce, nonceKey, Bool.and_eq_true, beq_iff_eq, Prod.mk.injEq]
  exact ⟨fun h => ⟨h.1.symm, h.2.symm⟩, fun h => ⟨h.1.symm, h.2.symm⟩⟩

theorem Failed.distinct {D : Driver} {i : Nat} {db db' : Tables} (h : Failed i db db')
    (h1 : Distinct (assocKey D.backend) db.assocs) (h2 : Distinct (nonceKey D.backend) db.nonces) :
    Distinct (assocKey D.backend) db'.assocs ∧ Distinct (nonceKey D.backend) db'.nonces := by
  cases h with
  | same => exact ⟨h1, h2⟩
  | aborted => exact ⟨rollback_distinct i h1, rollback_distinct i h2⟩

theorem perform_distinct {D : Driver} {i : Nat} {db db' : Tables} {s : Stmt} {r : Except PyErr Nat}
    (h : s.perform D i db = some (r, db')) (h1 : Distinct (assocKey D.backend) db.assocs)
    (h2 : Distinct (nonceKey D.backend) db.nonces) :
    Distinct (assocKey D.backend) db'.assocs ∧ Distinct (nonceKey D.backend) db'.nonces := by
  cases s with
  | replaceAssoc u a =>
    simp only [Stmt.perform, Option.map_eq_some_iff, Prod.mk.injEq] at h
    obtain ⟨l, hl, -, rfl⟩ := h
    exact ⟨replace_distinct (sameKey_key _ u a) hl h1, h2⟩
  | insertAssoc u a =>
    simp only [Stmt.perform, Option.map_eq_some_iff, Prod.mk.injEq] at h
    obtain ⟨⟨l, b⟩, hl, -, rfl⟩ := h
    exact ⟨insert_distinct (sameKey_key _ u a) hl h1, h2⟩
  | updateAssoc u a =>
    simp only [Stmt.perform, Option.map_eq_some_iff, Prod.mk.injEq] at h
    obtain ⟨⟨l, n⟩, hl, -, rfl⟩ := h
    exact ⟨update_distinct (key := assocKey D.backend) (f := fun r => (r.1, { a with handle := r.2.handle })) (fun _ => rfl) hl h1, h2⟩
  | removeAssoc u hd =>
    simp only [Stmt.perform, Option.map_eq_some_iff, Prod.mk.injEq] at h
    obtain ⟨⟨l, n⟩, hl, -, rfl⟩ := h
    exact ⟨delete_distinct hl h1, h2⟩
  | cleanAssocs t =>
    simp only [Stmt.perform, Option.map_eq_some_iff, Prod.mk.injEq] at h
    obtain ⟨⟨l, n⟩, hl, -, rfl⟩ := h
    exact ⟨delete_distinct hl h1, h2⟩
  | addNonce k =>
    simp only [Stmt.perform, Option.map_eq_some_iff, Prod.mk.injEq] at h
    obtain ⟨⟨l, b⟩, hl, -, rfl⟩ := h
    exact ⟨h1, insert_distinct (sameNonce_key _ k) hl h2⟩
  | cleanNonces t =>
    simp only [Stmt.perform, Option.map_eq_some_iff, Prod.mk.injEq] at h
    obtain ⟨⟨l, n⟩, hl, -, rfl⟩ := h
    exact ⟨h1, delete_distinct hl h2⟩

/-- rows are not made up -/
theorem rollback_rows {α : Type} {i : Nat} {l : List (Entry α)} {e : Entry α} (h : e ∈ SqlRows.rollback i l) :
    ∃ f ∈ l, f.row = e.row := by
  obtain ⟨f, hf, -, ⟨-, rfl⟩ | ⟨-, rfl⟩⟩ := rollback_mem.1 h <;> exact ⟨_, hf, rfl⟩

theorem commit_rows {α : Type} {i : Nat} {l : List (Entry α)} {e : Entry α} (h : e ∈ SqlRows.commit i l) :
    ∃ f ∈ l, f.row = e.row := by
  obtain ⟨f, hf, -, ⟨-, rfl⟩ | ⟨-, rfl⟩⟩ := commit_mem.1 h <;> exact ⟨_, hf, rfl⟩

theorem drop_rows {α : Type} {i : Nat} {p : α → Bool} {l : List (Entry α)} {e : Entry α} (h : e ∈ drop i p l) :
    ∃ f ∈ l, f.row = e.row := by
  obtain ⟨f, hf, ⟨-, -, rfl⟩ | ⟨-, rfl⟩⟩ := drop_mem.1 h <;> exact ⟨_, hf, rfl⟩

theorem perform_rows {D : Driver} {i : Nat} {db db' : Tables} {s : Stmt} {r : Except PyErr Nat}
    (h : s.perform D i db = some (r, db')) {e : Entry (Str × Assoc)} (he : e ∈ db'.assocs) :
    (∃ f ∈ db.assocs, f.row = e.row) ∨ s = .replaceAssoc e.row.1 e.row.2 ∨ s = .insertAssoc e.row.1 e.row.2 ∨
      s = .updateAssoc e.row.1 e.row.2 := by
  cases s with
  | replaceAssoc u a =>
    simp only [Stmt.perform, Option.map_eq_some_iff, Prod.mk.injEq] at h
    obtain ⟨l, hl, -, rfl⟩ := h
    obtain ⟨-, rfl⟩ := replace_some hl
    rcases List.mem_append.1 he with he | he
    · exact .inl (drop_rows he)
    · obtain rfl := List.mem_singleton.1 he
      exact .inr (.inl rfl)
  | insertAssoc u a =>
    simp only [Stmt.perform, Option.map_eq_some_iff, Prod.mk.injEq] at h
    obtain ⟨⟨l, b⟩, hl, -, rfl⟩ := h
    obtain ⟨-, ⟨-, rfl, -⟩ | ⟨-, rfl, -⟩⟩ := insert_some hl
    · exact .inl ⟨e, he, rfl⟩
    · rcases List.mem_append.1 he with he | he
      · exact .inl ⟨e, he, rfl⟩
      · obtain rfl := List.mem_singleton.1 he
        exact .inr (.inr (.inl rfl))
  | updateAssoc u a =>
    simp only [Stmt.perform, Option.map_eq_some_iff, Prod.mk.injEq] at h
    obtain ⟨⟨l, n⟩, hl, -, rfl⟩ := h
    have new : ∀ f : Entry (Str × Assoc), (f.seen i && isRow u a.handle f.row) = true →
        (f.row.1, { a with handle := f.row.2.handle }) = (u, a) := by
      intro f hf
      rw [Bool.and_eq_true, isRow_iff] at hf
      obtain ⟨-, h1, h2⟩ := hf
      rw [h1, h2]
    obtain ⟨f, hf, ⟨h1, -, rfl⟩ | ⟨h1, -, rfl | rfl⟩ | ⟨-, rfl⟩⟩ := ((update_some hl).2.1 e).1 he
    · have := new f h1
      simp only [Prod.mk.injEq] at this
      exact .inr (.inr (.inr (by simp [this])))
    · exact .inl ⟨f, hf, rfl⟩
    · have := new f h1
      simp only [Prod.mk.injEq] at this
      exact .inr (.inr (.inr (by simp [this])))
    · exact .inl ⟨e, hf, rfl⟩
  | removeAssoc u hd =>
    simp only [Stmt.perform, Option.map_eq_some_iff, Prod.mk.injEq] at h
    obtain ⟨⟨l, n⟩, hl, -, rfl⟩ := h
    obtain ⟨-, rfl, -⟩ := delete_some hl
    exact .inl (drop_rows he)
  | cleanAssocs t =>
    simp only [Stmt.perform, Option.map_eq_some_iff, Prod.mk.injEq] at h
    obtain ⟨⟨l, n⟩, hl, -, rfl⟩ := h
    obtain ⟨-, rfl, -⟩ := delete_some hl
    exact .inl (drop_rows (p := fun r => decide (r.2.issued + r.2.lifetime < t)) he)
  | addNonce k =>
    simp only [Stmt.perform, Option.map_eq_some_iff, Prod.mk.injEq] at h
    obtain ⟨⟨l, b⟩, hl, -, rfl⟩ := h
    exact .inl ⟨e, he, rfl⟩
  | cleanNonces t =>
    simp only [Stmt.perform, Option.map_eq_some_iff, Prod.mk.injEq] at h
    obtain ⟨⟨l, n⟩, hl, -, rfl⟩ := h
    exact .inl ⟨e, he, rfl⟩

theorem find_spec {q : Query} {i : Nat} {db : Tables} {a : Assoc} (h : a ∈ q.find i db) :
    q.matches (q.url, a) = true ∧ ∃ e ∈ db.assocs, e.row = (q.url, a) := by
  simp only [Query.find, SqlRows.select, List.mem_map, List.mem_filter, Bool.and_eq_true] at h
  obtain ⟨r, ⟨e, ⟨he, -, hm⟩, rfl⟩, rfl⟩ := h
  have : e.row.1 = q.url := by
    unfold Query.matches at hm
    split at hm
    · exact ((isRow_iff ..).1 hm).1
    · simpa using hm
  rw [← this]
  refine ⟨?_, e, he, rfl⟩
  rw [this]
  obtain ⟨⟨u, a⟩, _, _⟩ := e
  dsimp only at this
  subst this
  exact hm

/-! ## What is always true -/

structure Always (D : Driver) (c : Clock) (cfg : Config) : Prop where
  rows : ∀ e ∈ cfg.db.assocs, Op.storeAssociation e.row.1 e.row.2 ∈ cfg.started
  assocs : Distinct (assocKey D.backend) cfg.db.assocs
  nonces : Distinct (nonceKey D.backend) cfg.db.nonces
  progs : ∀ i cl, cfg.clients i = some cl → cl.op ∈ cfg.started ∧
    Good (Does c cl.op) (Gives c cl.op cl.since) cfg.point cl.todo
  outs : ∀ x ∈ cfg.returned, Gives c x.1 x.2.1 cfg.point x.2.2

theorem put_some {cfg : Config} {i j : Nat} {x : Option Client} {cl : Client}
    (h : (cfg.put i x).clients j = some cl) : (j = i ∧ x = some cl) ∨ (j ≠ i ∧ cfg.clients j = some cl) := by
  simp only [Config.put] at h
  split at h
  · next h1 => exact .inl ⟨h1, h⟩
  · next h1 => exact .inr ⟨h1, h⟩

/-- a step of one client -/
theorem Always.go {D : Driver} {c : Clock} {cfg : Config} (h : Always D c cfg) {i : Nat} {op : Op} {s : Nat}
    {p p' : Prog Answer} {db : Tables} (hi : cfg.clients i = some ⟨op, s, p⟩)
    (hg : Good (Does c op) (Gives c op s) cfg.point p')
    (hr : ∀ e ∈ db.assocs, Op.storeAssociation e.row.1 e.row.2 ∈ cfg.started)
    (hd : Distinct (assocKey D.backend) db.assocs ∧ Distinct (nonceKey D.backend) db.nonces) :
    Always D c { cfg.put i (some ⟨op, s, p'⟩) with db := db } where
  rows := hr
  assocs := hd.1
  nonces := hd.2
  progs j cl hj := by
    rcases put_some (cfg := cfg) hj with ⟨rfl, h1⟩ | ⟨-, h1⟩
    · obtain rfl := Option.some.inj h1
      exact ⟨(h.progs _ _ hi).1, hg⟩
    · exact h.progs j cl h1
  outs := h.outs

theorem Always.failed {D : Driver} {c : Clock} {cfg : Config} (h : Always D c cfg) {i : Nat} {db : Tables}
    (hf : Failed i cfg.db db) : (∀ e ∈ db.assocs, Op.storeAssociation e.row.1 e.row.2 ∈ cfg.started) ∧
      Distinct (assocKey D.backend) db.assocs ∧ Distinct (nonceKey D.backend) db.nonces := by
  refine ⟨?_, hf.distinct h.assocs h.nonces⟩
  cases hf with
  | same => exact h.rows
  | aborted =>
    intro e he
    obtain ⟨f, hf, h1⟩ := rollback_rows he
    rw [← h1]
    exact h.rows f hf

theorem Always.committed {D : Driver} {c : Clock} {cfg : Config} (h : Always D c cfg) (i : Nat) :
    (∀ e ∈ (cfg.db.commit i).assocs, Op.storeAssociation e.row.1 e.row.2 ∈ cfg.started) ∧
      Distinct (assocKey D.backend) (cfg.db.commit i).assocs ∧
      Distinct (nonceKey D.backend) (cfg.db.commit i).nonces := by
  refine ⟨fun e he => ?_, commit_distinct i h.assocs, commit_distinct i h.nonces⟩
  obtain ⟨f, hf, h1⟩ := commit_rows he
  rw [← h1]
  exact h.rows f hf

theorem always_step {D : Driver} {c : Clock} {allowed : Config → Client → Prop} {cfg cfg' : Config}
    (h : Always D c cfg) (hs : Step D c allowed cfg cfg') : Always D c cfg' := by
  have le : cfg.point.Le cfg.point := .refl _
  cases hs with
  | tick t ht =>
    have le : cfg.point.Le ⟨t, cfg.started⟩ := ⟨ht, fun _ h => h⟩
    exact ⟨h.rows, h.assocs, h.nonces, fun i cl hi => ⟨(h.progs i cl hi).1, (h.progs i cl hi).2.mono le⟩,
      fun x hx => (h.outs x hx).mono le⟩
  | start i op hi =>
    have le : cfg.point.Le ⟨cfg.clock, op :: cfg.started⟩ := ⟨Nat.le_refl _, fun _ h => List.mem_cons_of_mem _ h⟩
    refine ⟨fun e he => List.mem_cons_of_mem _ (h.rows e he), h.assocs, h.nonces, fun j cl hj => ?_,
      fun x hx => (h.outs x hx).mono le⟩
    rcases put_some (cfg := cfg) hj with ⟨rfl, h1⟩ | ⟨-, h1⟩
    · obtain rfl := Option.some.inj h1
      exact ⟨List.mem_cons_self .., good_program D c op _ _ (Nat.le_refl _)⟩
    · exact ⟨List.mem_cons_of_mem _ (h.progs j cl h1).1, (h.progs j cl h1).2.mono le⟩
  | time i op s k hi => exact h.go hi ((h.progs _ _ hi).2 _ le) h.rows ⟨h.assocs, h.nonces⟩
  | query i op s q k hi =>
    refine h.go hi (((h.progs _ _ hi).2 _ le).1 _ fun a ha => ?_) h.rows ⟨h.assocs, h.nonces⟩
    obtain ⟨h1, e, he, h2⟩ := find_spec ha
    have := h.rows e he
    rw [h2] at this
    exact ⟨h1, this⟩
  | queryFails i op s q k e db hi hd =>
    exact h.go hi (((h.progs _ _ hi).2 _ le).2 _) (h.failed hd).1 (h.failed hd).2
  | exec i op s st k r db hi ha hx =>
    refine h.go hi (((h.progs _ _ hi).2 _ le).2 _) (fun e he => ?_) (perform_distinct hx h.assocs h.nonces)
    rcases perform_rows hx he with ⟨f, hf, h1⟩ | h1
    · rw [← h1]
      exact h.rows f hf
    · have h2 := ((h.progs _ _ hi).2 _ le).1
      have h3 := (h.progs _ _ hi).1
      dsimp only at h2 h3
      rcases h1 with rfl | rfl | rfl <;> cases op <;> simp [Does] at h2 <;>
        (obtain ⟨rfl, rfl⟩ := h2; exact h3)
  | execFails i op s st k e db hi hd =>
    exact h.go hi (((h.progs _ _ hi).2 _ le).2 _) (h.failed hd).1 (h.failed hd).2
  | rollback i op s k hi =>
    exact h.go hi ((h.progs _ _ hi).2 _ le _) (h.failed .aborted).1 (h.failed .aborted).2
  | rollbackFails i op s k e db hi hd =>
    exact h.go hi ((h.progs _ _ hi).2 _ le _) (h.failed hd).1 (h.failed hd).2
  | commit i op s k hi => exact h.go hi ((h.progs _ _ hi).2 _ le _) (h.committed i).1 (h.committed i).2
  | commitFails i op s k e db hi hd =>
    exact h.go hi ((h.progs _ _ hi).2 _ le _) (h.failed hd).1 (h.failed hd).2
  | commitUnheard i op s k e hi => exact h.go hi ((h.progs _ _ hi).2 _ le _) (h.committed i).1 (h.committed i).2
  | finish i op s r hi =>
    refine ⟨h.rows, h.assocs, h.nonces, fun j cl hj => ?_, fun x hx => ?_⟩
    · rcases put_some (cfg := cfg) hj with ⟨-, h1⟩ | ⟨-, h1⟩
      · cases h1
      · exact h.progs j cl h1
    · rcases List.mem_cons.1 hx with rfl | hx
      · exact (h.progs _ _ hi).2 _ le
      · exact h.outs x hx
  | crash i =>
    refine ⟨(h.failed .aborted).1, (h.failed (i := i) .aborted).2.1, (h.failed (i := i) .aborted).2.2,
      fun j cl hj => ?_, h.outs⟩
    rcases put_some (cfg := cfg) hj with ⟨-, h1⟩ | ⟨-, h1⟩
    · cases h1
    · exact h.progs j cl h1

theorem always {D : Driver} {c : Clock} {allowed : Config → Client → Prop} {cfg : Config}
    (h : Reachable D c allowed cfg) : Always D c cfg := by
  induction h with
  | init => exact ⟨fun e he => by simp [Config.init, Tables.empty] at he, .nil, .nil,
      fun i cl hi => by simp [Config.init] at hi, fun x hx => by simp [Config.init] at hx⟩
  | step _ hs ih => exact always_step ih hs

end SqlConc
