import Verif.Lemmas.MemStore
import Verif.Lemmas.SqlStore
import Verif.Spec.Server
/-! # The stores of the package are faithful -/

namespace MemStore
open Py Association Store

/-- a memory store, in any state it can get into -/
abbrev Kept := { s : State // Inv s }

def keptInit : Kept := ⟨init, inv_init⟩

def keptStep (c : Clock) (s : Kept) (e : Event) : Kept × Outcome :=
  (⟨(step c s.1 e).1, step_inv c s.1 s.2 e⟩, .ok (step c s.1 e).2)

def keptView (s : Kept) : AssocMap := view s.1

theorem fades_rfl (t : Int) (m : AssocMap) : Fades t m m := fun _ _ => .inl rfl

theorem faithful (c : Clock) : Faithful c (keptStep c) keptView where
  put s now u a := .inl ⟨_, rfl, (storeAssociation_spec s.1 s.2 u a).2.1⟩
  get s now u h := by
    refine ⟨?_, .inr ⟨_, rfl, .inl (getAssociation_some s.1 s.2 u h)⟩⟩
    have : keptView (keptStep c s (now, .getAssociation u (some h))).1 = keptView s :=
      (getAssociation_spec s.1 s.2 u (some h)).2.1
    rw [this]; exact fades_rfl _ _
  remove s now u h := .inl ⟨_, rfl, (removeAssociation_spec s.1 s.2 u h).2.1⟩
  nonce s now u t sa := by
    simp only [keptView, keptStep, step, useNonce]
    split
    · rfl
    · split <;> rfl
  cleanNonces s now := rfl
  cleanAssocs s now := by
    have : keptView (keptStep c s (now, .cleanupAssociations)).1 = _ := (view_cleaned c now s.1 s.2).2.1
    rw [this]
    intro u h
    simp only [keptView]
    cases hv : view s.1 u h with
    | none => exact .inl rfl
    | some a =>
      by_cases hx : expired (c.seconds now) a
      · exact .inr ⟨by simp [Option.filter, hx], a, rfl, hx⟩
      · exact .inl (by simp [Option.filter, hx])

end MemStore

namespace SqlStore
open Py Association Store

/-- A call a program may make: it stores only associations of a known type and, on MySQL, only under server URLs short
    enough to be told apart. -/
def Permitted (D : Driver) (op : Op) : Prop :=
  ∀ u a, op = .storeAssociation u a → Plain D.backend u ∧ allAssociationTypes.contains a.assocType = true

instance (D : Driver) (op : Op) : Decidable (Permitted D op) := by
  unfold Permitted
  cases op with
  | storeAssociation u a =>
    exact decidable_of_iff ((D.backend ≠ .mysql ∨ (Utf8.encode u).length ≤ 255) ∧
        allAssociationTypes.contains a.assocType = true) (by
      constructor
      · rintro h u' a' e
        simp only [Op.storeAssociation.injEq] at e
        obtain ⟨rfl, rfl⟩ := e; exact h
      · intro h; exact h u a rfl)
  | _ => exact isTrue (by simp)

/-- An SQL database in any state it can get into, with the faults it will show: those of the n-th call. -/
structure Kept (D : Driver) where
  db : { db : Db // Inv D.backend db }
  count : Nat
  faults : Nat → Fault × Option PyErr

/-- one call; one that is not `Permitted` is refused -/
def keptStep (D : Driver) (c : Clock) (s : Kept D) (e : Event) : Kept D × Outcome :=
  if h : Permitted D e.2 then
    (⟨⟨(step D c s.db.1 ⟨e.1, e.2, (s.faults s.count).1, (s.faults s.count).2⟩).1,
        (step_table (e := ⟨e.1, e.2, (s.faults s.count).1, (s.faults s.count).2⟩) s.db.2 h).1⟩, s.count + 1, s.faults⟩,
      (step D c s.db.1 ⟨e.1, e.2, (s.faults s.count).1, (s.faults s.count).2⟩).2)
  else (s, .error .typeError)

def keptView {D : Driver} (s : Kept D) : AssocMap := view s.db.1

theorem keptView_step (D : Driver) (c : Clock) (s : Kept D) (e : Event) :
    keptView (keptStep D c s e).1 = tableStep c (keptView s) (e, (keptStep D c s e).2) := by
  unfold keptStep
  split
  · next h => exact (step_table (e := ⟨e.1, e.2, (s.faults s.count).1, (s.faults s.count).2⟩) s.db.2 h).2
  · simp [tableStep]

theorem get_ok {D : Driver} {c : Clock} {db : Db} (hd : Inv D.backend db) {e : Call} {url handle : Str}
    (hop : e.op = .getAssociation url (some handle)) {x : Answer} (h : (step D c db e).2 = .ok x) :
    x = .assoc ((view db url handle).filter fun a => ¬ expired (c.seconds e.now) a) := by
  unfold step at h
  generalize hc : call D c ⟨db, db⟩ e = q at h
  obtain ⟨o, conn'⟩ := q
  simp only at h
  subst h
  rcases call_ok hc with ⟨cur, ht, rfl⟩ | ⟨-, ⟨u, t, s, ho⟩, -⟩
  · rw [hop] at ht
    simp only [txn, bind_ok, pure_def] at ht
    obtain ⟨r, c1, h1, h2⟩ := ht
    cases h2
    obtain ⟨rows, hr, hl, -⟩ := txn_get_ok hd.uniq h1
    obtain ⟨l1, l2⟩ := latest_ok rows r hl
    have hr' : ∀ a, a ∈ rows ↔ ((view db url handle).filter fun a => ¬ expired (c.seconds e.now) a) = some a := by
      intro a
      rw [hr, Option.filter_eq_some_iff]
      simp
    congr 1
    cases r with
    | none =>
      rw [(l1.1 rfl)] at hr'
      cases hx : (view db url handle).filter fun a => ¬ expired (c.seconds e.now) a with
      | none => rfl
      | some a => exact absurd ((hr' a).2 hx) (by simp)
    | some a => exact ((hr' a).1 (l2 a rfl).1).symm
  · rw [hop] at ho; simp at ho

theorem kept_get (D : Driver) (c : Clock) (s : Kept D) (now : Nat) (url handle : Str) (x : Answer)
    (h : (keptStep D c s (now, .getAssociation url (some handle))).2 = .ok x) :
    x = .assoc ((keptView s url handle).filter fun a => ¬ expired (c.seconds now) a) := by
  unfold keptStep at h
  split at h
  · exact get_ok s.db.2 rfl h
  · simp at h

theorem filter_cases (o : Option Assoc) (p : Assoc → Prop) [DecidablePred p] :
    (o.filter fun a => p a) = o ∨ (o.filter fun a => p a) = none ∧ ∃ a, o = some a ∧ ¬ p a := by
  cases o with
  | none => exact .inl rfl
  | some a =>
    by_cases h : p a
    · exact .inl (by simp [Option.filter, h])
    · exact .inr ⟨by simp [Option.filter, h], a, rfl, h⟩

theorem faithful (D : Driver) (c : Clock) : Faithful c (keptStep D c) (keptView (D := D)) where
  put s now u a := by
    rw [keptView_step]
    cases (keptStep D c s (now, .storeAssociation u a)).2 with
    | ok r => exact .inl ⟨r, rfl, rfl⟩
    | error e => exact .inr ⟨e, rfl, rfl⟩
  get s now u h := by
    constructor
    · rw [keptView_step]
      cases hr : (keptStep D c s (now, .getAssociation u (some h))).2 with
      | error e => exact fun _ _ => .inl rfl
      | ok r =>
        intro u' h'
        simp only [tableStep]
        split
        · rcases filter_cases (keptView s u' h') (fun a => ¬ expired (c.seconds now) a) with h | ⟨h, a, ha, hx⟩
          · exact .inl h
          · exact .inr ⟨h, a, ha, Classical.not_not.1 hx⟩
        · exact .inl rfl
    · cases hr : (keptStep D c s (now, .getAssociation u (some h))).2 with
      | error e => exact .inl ⟨e, rfl⟩
      | ok r =>
        rw [kept_get D c s now u h r hr]
        refine .inr ⟨_, rfl, ?_⟩
        rcases filter_cases (keptView s u h) (fun a => ¬ expired (c.seconds now) a) with h | ⟨h, a, ha, hx⟩
        · exact .inl h
        · exact .inr ⟨h, a, ha, Classical.not_not.1 hx⟩
  remove s now u h := by
    rw [keptView_step]
    cases (keptStep D c s (now, .removeAssociation u h)).2 with
    | ok r => exact .inl ⟨r, rfl, rfl⟩
    | error e => exact .inr ⟨e, rfl, rfl⟩
  nonce s now u t sa := by
    rw [keptView_step]
    cases (keptStep D c s (now, .useNonce u t sa)).2 <;> rfl
  cleanNonces s now := by
    rw [keptView_step]
    cases (keptStep D c s (now, .cleanupNonces)).2 <;> rfl
  cleanAssocs s now := by
    rw [keptView_step]
    cases (keptStep D c s (now, .cleanupAssociations)).2 with
    | error e => exact fun _ _ => .inl rfl
    | ok r =>
      intro u h
      simp only [tableStep]
      rcases filter_cases (keptView s u h) (fun a => ¬ a.issued + a.lifetime < c.seconds now) with h | ⟨h, a, ha, hx⟩
      · exact .inl h
      · exact .inr ⟨h, a, ha, by have := Classical.not_not.1 hx; simp only [expired]; omega⟩

end SqlStore
