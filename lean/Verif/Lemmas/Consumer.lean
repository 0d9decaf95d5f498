import Verif.Lemmas.ServerCodec
import Verif.Props.Association
import Verif.Spec.Consumer
/-! # Running consumer programs -/

namespace Consumer
open Py Message Association Cryptutil Store Discover

@[simp] theorem lift_ok {α : Type} (x : Except PyErr α) (a : α) : lift x = .ok a ↔ x = .ok a := by
  cases x <;> simp [lift]

theorem lift_error {α : Type} (x : Except PyErr α) (e : Err) : lift x = .error e ↔ ∃ e', x = .error e' ∧ e = .py e' := by
  cases x <;> simp [lift, eq_comm]

theorem runs_handle {α β : Type} (p : Prog α) (f : Except Err α → Prog β) (evs : List Ev) (r : Except Err β) :
    Runs (p.handle f) evs r ↔ ∃ e1 e2 o, evs = e1 ++ e2 ∧ Runs p e1 o ∧ Runs (f o) e2 r := by
  induction p generalizing evs with
  | done o =>
    rw [Prog.handle]
    constructor
    · intro h; exact ⟨[], evs, o, rfl, ⟨rfl, rfl⟩, h⟩
    · rintro ⟨e1, e2, o', rfl, ⟨rfl, rfl⟩, h⟩; exact h
  | store op k ih =>
    simp only [Prog.handle, Runs]
    constructor
    · rintro ⟨o, rest, rfl, h⟩
      obtain ⟨e1, e2, o', rfl, h1, h2⟩ := (ih _ _).1 h
      exact ⟨_ :: e1, e2, o', rfl, ⟨o, e1, rfl, h1⟩, h2⟩
    · rintro ⟨e1, e2, o', rfl, ⟨o, e1, rfl, h1⟩, h2⟩
      exact ⟨o, e1 ++ e2, rfl, (ih _ _).2 ⟨e1, e2, o', rfl, h1, h2⟩⟩
  | post u b k ih =>
    simp only [Prog.handle, Runs]
    constructor
    · rintro ⟨o, rest, rfl, h⟩
      obtain ⟨e1, e2, o', rfl, h1, h2⟩ := (ih _ _).1 h
      exact ⟨_ :: e1, e2, o', rfl, ⟨o, e1, rfl, h1⟩, h2⟩
    · rintro ⟨e1, e2, o', rfl, ⟨o, e1, rfl, h1⟩, h2⟩
      exact ⟨o, e1 ++ e2, rfl, (ih _ _).2 ⟨e1, e2, o', rfl, h1, h2⟩⟩
  | discover i k ih =>
    simp only [Prog.handle, Runs]
    constructor
    · rintro ⟨o, rest, rfl, h⟩
      obtain ⟨e1, e2, o', rfl, h1, h2⟩ := (ih _ _).1 h
      exact ⟨_ :: e1, e2, o', rfl, ⟨o, e1, rfl, h1⟩, h2⟩
    · rintro ⟨e1, e2, o', rfl, ⟨o, e1, rfl, h1⟩, h2⟩
      exact ⟨o, e1 ++ e2, rfl, (ih _ _).2 ⟨e1, e2, o', rfl, h1, h2⟩⟩

@[simp] theorem runs_done {α : Type} (r r' : Except Err α) (evs : List Ev) :
    Runs (.done r) evs r' ↔ evs = [] ∧ r = r' := Iff.rfl

@[simp] theorem runs_pure {α : Type} (a : α) (r : Except Err α) (evs : List Ev) :
    Runs (pure a) evs r ↔ evs = [] ∧ .ok a = r := Iff.rfl

@[simp] theorem runs_raise {α : Type} (e : Err) (r : Except Err α) (evs : List Ev) :
    Runs (.raise e) evs r ↔ evs = [] ∧ .error e = r := Iff.rfl

@[simp] theorem runs_ofPy {α : Type} (x : Except PyErr α) (r : Except Err α) (evs : List Ev) :
    Runs (.ofPy x) evs r ↔ evs = [] ∧ lift x = r := Iff.rfl

theorem runs_bind {α β : Type} (p : Prog α) (f : α → Prog β) (evs : List Ev) (r : Except Err β) :
    Runs (p >>= f) evs r ↔ (∃ e1 e2 a, evs = e1 ++ e2 ∧ Runs p e1 (.ok a) ∧ Runs (f a) e2 r) ∨
      (∃ e, r = .error e ∧ Runs p evs (.error e)) := by
  rw [show (p >>= f) = p.handle _ from rfl, runs_handle]
  constructor
  · rintro ⟨e1, e2, o, rfl, h1, h2⟩
    cases o with
    | ok a => exact .inl ⟨e1, e2, a, rfl, h1, h2⟩
    | error e => obtain ⟨rfl, rfl⟩ := h2; exact .inr ⟨e, rfl, by simpa using h1⟩
  · rintro (⟨e1, e2, a, rfl, h1, h2⟩ | ⟨e, rfl, h⟩)
    · exact ⟨e1, e2, .ok a, rfl, h1, h2⟩
    · exact ⟨evs, [], .error e, by simp, h, rfl, rfl⟩

theorem runs_bind_ok {α β : Type} (p : Prog α) (f : α → Prog β) (evs : List Ev) (b : β) :
    Runs (p >>= f) evs (.ok b) ↔ ∃ e1 e2 a, evs = e1 ++ e2 ∧ Runs p e1 (.ok a) ∧ Runs (f a) e2 (.ok b) := by
  rw [runs_bind]; simp

theorem runs_py_bind_ok {α β : Type} (x : Except PyErr α) (f : α → Prog β) (evs : List Ev) (b : β) :
    Runs (Prog.ofPy x >>= f) evs (.ok b) ↔ ∃ a, x = .ok a ∧ Runs (f a) evs (.ok b) := by
  rw [runs_bind_ok]
  constructor
  · rintro ⟨e1, e2, a, rfl, ⟨rfl, h⟩, h2⟩
    exact ⟨a, by simpa using h, by simpa using h2⟩
  · rintro ⟨a, rfl, h⟩
    exact ⟨[], evs, a, rfl, ⟨rfl, rfl⟩, h⟩

/-- a computation that touches nothing comes first -/
theorem runs_py_bind {α β : Type} (x : Except PyErr α) (f : α → Prog β) (evs : List Ev) (r : Except Err β) :
    Runs (Prog.ofPy x >>= f) evs r ↔ (∃ a, x = .ok a ∧ Runs (f a) evs r) ∨
      (∃ e, x = .error e ∧ r = .error (.py e) ∧ evs = []) := by
  rw [runs_bind]
  constructor
  · rintro (⟨e1, e2, a, rfl, ⟨rfl, h⟩, h2⟩ | ⟨e, rfl, rfl, h⟩)
    · exact .inl ⟨a, by simpa using h, by simpa using h2⟩
    · obtain ⟨e', h', rfl⟩ := (lift_error _ _).1 h
      exact .inr ⟨e', h', rfl, rfl⟩
  · rintro (⟨a, rfl, h⟩ | ⟨e, rfl, rfl, rfl⟩)
    · exact .inl ⟨[], evs, a, rfl, ⟨rfl, rfl⟩, h⟩
    · exact .inr ⟨.py e, rfl, rfl, rfl⟩

theorem runs_fetchAssoc_ok {url : Str} {h : Option Str} {evs : List Ev} {r : Option Assoc} :
    Runs (fetchAssoc url h) evs (.ok r) ↔ evs = [.store (.getAssociation url h) (.ok (.assoc r))] := by
  simp only [fetchAssoc, Runs]
  constructor
  · rintro ⟨o, rest, rfl, h⟩
    split at h
    · obtain ⟨rfl, h⟩ := h; cases h; rfl
    · obtain ⟨rfl, h⟩ := h; cases h
    · obtain ⟨rfl, h⟩ := h; cases h
  · rintro rfl; exact ⟨_, _, rfl, rfl, rfl⟩

theorem runs_useNonce_ok {url : Str} {t : Int} {salt : Str} {evs : List Ev} {b : Bool} :
    Runs (useNonce url t salt) evs (.ok b) ↔ evs = [.store (.useNonce url t salt) (.ok (.bool b))] := by
  simp only [useNonce, Runs]
  constructor
  · rintro ⟨o, rest, rfl, h⟩
    split at h
    · obtain ⟨rfl, h⟩ := h; cases h; rfl
    · obtain ⟨rfl, h⟩ := h; cases h
    · obtain ⟨rfl, h⟩ := h; cases h
  · rintro rfl; exact ⟨_, _, rfl, rfl, rfl⟩

theorem runs_putAssoc_ok {url : Str} {a : Assoc} {evs : List Ev} :
    Runs (putAssoc url a) evs (.ok ()) ↔ ∃ x, evs = [.store (.storeAssociation url a) (.ok x)] := by
  simp only [putAssoc, Runs]
  constructor
  · rintro ⟨o, rest, rfl, h⟩
    split at h
    · obtain ⟨rfl, h⟩ := h; exact ⟨_, rfl⟩
    · obtain ⟨rfl, h⟩ := h; cases h
  · rintro ⟨x, rfl⟩; exact ⟨_, _, rfl, rfl, rfl⟩

theorem runs_dropAssoc_ok {url h : Str} {evs : List Ev} :
    Runs (dropAssoc url h) evs (.ok ()) ↔ ∃ x, evs = [.store (.removeAssociation url h) (.ok x)] := by
  simp only [dropAssoc, Runs]
  constructor
  · rintro ⟨o, rest, rfl, h⟩
    split at h
    · obtain ⟨rfl, h⟩ := h; exact ⟨_, rfl⟩
    · obtain ⟨rfl, h⟩ := h; cases h
  · rintro ⟨x, rfl⟩; exact ⟨_, _, rfl, rfl, rfl⟩

theorem runs_discover {id : Str} {evs : List Ev} {r : Except Err (Str × List Endpoint)} :
    Runs (runDiscover id) evs r ↔ ∃ o, evs = [.discover id o] ∧ lift o = r := by
  simp only [runDiscover, Runs, runs_ofPy]
  constructor
  · rintro ⟨o, rest, rfl, rfl, h⟩; exact ⟨o, rfl, h⟩
  · rintro ⟨o, rfl, h⟩; exact ⟨o, [], rfl, rfl, h⟩

theorem runs_makeKVPost {W : World} {m : Msg} {url : Str} {evs : List Ev} {r : Except Err Msg} :
    Runs (makeKVPost W m url) evs r ↔ ∃ o, evs = [.post url m.toURLEncoded o] ∧
      ((∃ h, o = .ok h ∧ httpResponseToMessage W h = r) ∨ (∃ e, o = .error e ∧ r = .error (.py e))) := by
  simp only [makeKVPost, Runs]
  constructor
  · rintro ⟨o, rest, rfl, h⟩
    cases o with
    | ok x => obtain ⟨rfl, h⟩ := h; exact ⟨_, rfl, .inl ⟨x, rfl, h⟩⟩
    | error e => obtain ⟨rfl, h⟩ := h; exact ⟨_, rfl, .inr ⟨e, rfl, h.symm⟩⟩
  · rintro ⟨o, rfl, (⟨h, rfl, hr⟩ | ⟨e, rfl, rfl⟩)⟩
    · exact ⟨_, _, rfl, rfl, hr⟩
    · exact ⟨_, _, rfl, rfl, rfl⟩

/-! ## Playing a program against prepared replies -/

/-- The outcome of a program, where the calls it makes are the ones prepared. -/
def play {α : Type} : Prog α → List Ev → Option (Except Err α)
  | .done r, [] => some r
  | .store op k, .store op' o :: rest => if op = op' then play (k o) rest else none
  | .post u b k, .post u' b' o :: rest => if u = u' ∧ b = b' then play (k o) rest else none
  | .discover i k, .discover i' o :: rest => if i = i' then play (k o) rest else none
  | _, _ => none

theorem play_runs {α : Type} {p : Prog α} {evs : List Ev} {r : Except Err α} (h : play p evs = some r) :
    Runs p evs r := by
  induction p generalizing evs with
  | done o => cases evs <;> simp_all [play]
  | store op k ih =>
    rcases evs with _ | ⟨_ | _ | _, rest⟩ <;> simp [play] at h
    exact ⟨_, _, by rw [h.1], ih _ h.2⟩
  | post u b k ih =>
    rcases evs with _ | ⟨_ | _ | _, rest⟩ <;> simp [play] at h
    exact ⟨_, _, by rw [h.1.1, h.1.2], ih _ h.2⟩
  | discover i k ih =>
    rcases evs with _ | ⟨_ | _ | _, rest⟩ <;> simp [play] at h
    exact ⟨_, _, by rw [h.1], ih _ h.2⟩

end Consumer

namespace Consumer
open Py Message Association Cryptutil Store Discover

/-- whatever comes back, the program makes only calls of this kind -/
def Only {α : Type} (P : Ev → Prop) (p : Prog α) : Prop := ∀ evs r, Runs p evs r → ∀ ev ∈ evs, P ev

theorem only_done {α : Type} {P : Ev → Prop} (r : Except Err α) : Only P (.done r) := by
  rintro evs r ⟨rfl, -⟩; simp

theorem only_pure {α : Type} {P : Ev → Prop} (a : α) : Only P (pure a : Prog α) := only_done _
theorem only_raise {α : Type} {P : Ev → Prop} (e : Err) : Only P (.raise e : Prog α) := only_done _
theorem only_ofPy {α : Type} {P : Ev → Prop} (x : Except PyErr α) : Only P (.ofPy x) := only_done _

theorem only_handle {α β : Type} {P : Ev → Prop} {p : Prog α} {f : Except Err α → Prog β} (hp : Only P p)
    (hf : ∀ o, Only P (f o)) : Only P (p.handle f) := by
  intro evs r h
  rw [runs_handle] at h
  obtain ⟨e1, e2, o, rfl, h1, h2⟩ := h
  intro ev hev
  rw [List.mem_append] at hev
  exact hev.elim (hp _ _ h1 ev) (hf o _ _ h2 ev)

theorem only_bind {α β : Type} {P : Ev → Prop} {p : Prog α} {f : α → Prog β} (hp : Only P p)
    (hf : ∀ a, Only P (f a)) : Only P (p >>= f) :=
  only_handle hp fun o => by cases o with
    | ok a => exact hf a
    | error e => exact only_done _

theorem only_store {α : Type} {P : Ev → Prop} {op : Store.Op} {k : Outcome → Prog α} (h : ∀ o, P (.store op o))
    (hk : ∀ o, Only P (k o)) : Only P (.store op k) := by
  rintro evs r ⟨o, rest, rfl, h1⟩ ev hev
  rcases List.mem_cons.1 hev with rfl | hev
  · exact h o
  · exact hk o _ _ h1 ev hev

theorem only_post {α : Type} {P : Ev → Prop} {u b : Str} {k : Except PyErr Http → Prog α} (h : ∀ o, P (.post u b o))
    (hk : ∀ o, Only P (k o)) : Only P (.post u b k) := by
  rintro evs r ⟨o, rest, rfl, h1⟩ ev hev
  rcases List.mem_cons.1 hev with rfl | hev
  · exact h o
  · exact hk o _ _ h1 ev hev

theorem only_discover {α : Type} {P : Ev → Prop} {i : Str} {k : Except PyErr (Str × List Endpoint) → Prog α}
    (h : ∀ o, P (.discover i o)) (hk : ∀ o, Only P (k o)) : Only P (.discover i k) := by
  rintro evs r ⟨o, rest, rfl, h1⟩ ev hev
  rcases List.mem_cons.1 hev with rfl | hev
  · exact h o
  · exact hk o _ _ h1 ev hev

end Consumer
