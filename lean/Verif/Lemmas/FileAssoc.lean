import Verif.Lemmas.FileLogic
import Verif.Lemmas.SqlStore
import Verif.Props.Association
/-! # Association files under concurrency -/

namespace FileStore
open Py Files Store Association

/-- ghost state of a process: the temporary file it holds (name, file, content so far), whether it has
    renamed it, and the file it has open for reading (and the name it was opened under) -/
structure Ghost where
  held : Option (Str × Nat × Bytes)
  pub : Bool
  opened : Option (Nat × Str)

def Ghost.none : Ghost := ⟨.none, false, .none⟩

/-- the calls permitted; `tgt` is the content and name of the file the process is to make, `ua` the
    association files it may remove -/
def need (tgt : Option (Bytes × Str)) (ua : Str → Prop) (g : Ghost) : Call → Prop
  | .write i _ => ∃ tmp b, g.held = some (tmp, i, b)
  | .rename tmp n => g.pub = false ∧ ∃ i b, g.held = some (tmp, i, b) ∧ tgt = some (b, n)
  | .unlink .temp n => ∃ i b, g.held = some (n, i, b)
  | .unlink .assocs n => ua n
  | .mkstemp => g.held = .none
  | .read i => ∃ n, g.opened = some (i, n)
  | _ => True

/-- how the ghost state follows a call; `St` says what a file opened under a name may contain -/
def next (win : Bool) (St : Str → Bytes → Prop) (g : Ghost) : (c : Call) → c.Reply → Ghost → Prop
  | .write i b, r, g' => ∃ tmp d, g.held = some (tmp, i, d) ∧ ∃ k, (r = .ok () → b.length ≤ k) ∧
      g' = { g with held := some (tmp, i, d ++ b.take k) }
  | .rename _ _, .ok (), g' => g' = { g with held := .none, pub := true }
  | .rename _ _, .error e, g' => g' = g ∧ (e = .eexist → win = true)
  | .unlink .temp _, _, g' => g' = { g with held := .none }
  | .mkstemp, .ok (n, i), g' => g' = { g with held := some (n, i, []) }
  | .openRead n, .ok i, g' => g' = { g with opened := some (i, n) }
  | .read i, .ok b, g' => g' = g ∧ ∀ n, g.opened = some (i, n) → St n b
  | _, _, g' => g' = g

variable {win : Bool} {St : Str → Bytes → Prop} {tgt : Option (Bytes × Str)} {ua : Str → Prop}

abbrev WSafe (tgt : Option (Bytes × Str)) (ua : Str → Prop) (win : Bool) (St : Str → Bytes → Prop)
    (Q : Except PyErr α → Ghost → Prop) (g : Ghost) (p : Prog α) : Prop :=
  Safe (need tgt ua) (next win St) Q g p

/-! ## Storing -/

theorem safe_removeTemp {n : Str} {i : Nat} {b : Bytes} {pub : Bool} {o : Option (Nat × Str)} :
    WSafe tgt ua win St (fun _ g => g = ⟨.none, pub, o⟩) ⟨some (n, i, b), pub, o⟩ (removeIfPresent .temp n) := by
  refine ⟨⟨i, b, rfl⟩, fun r g' hg => ?_⟩
  have : g' = ⟨.none, pub, o⟩ := hg
  subst this
  cases r with
  | ok u => rfl
  | error e => cases e <;> rfl

theorem safe_mktemp {pub : Bool} {o : Option (Nat × Str)} :
    WSafe tgt ua win St (fun r g => match r with
      | .ok (n, i) => g = ⟨some (n, i, []), pub, o⟩
      | .error _ => g = ⟨.none, pub, o⟩) ⟨.none, pub, o⟩ mktemp := by
  refine ⟨rfl, fun r g' hg => ?_⟩
  cases r with
  | error e => exact hg
  | ok p =>
    obtain ⟨n, i⟩ := p
    have : g' = ⟨some (n, i, []), pub, o⟩ := hg
    subst this
    refine ⟨trivial, fun r g' hg => ?_⟩
    have : g' = ⟨some (n, i, []), pub, o⟩ := hg
    subst this
    cases r with
    | ok u => rfl
    | error e => exact Safe.bind safe_removeTemp (fun _ g hg => hg) (fun _ g hg => hg)

theorem safe_flush {n : Str} {i : Nat} {d b : Bytes} {pub : Bool} {o : Option (Nat × Str)} :
    WSafe tgt ua win St (fun r g => (∃ d', g = ⟨some (n, i, d'), pub, o⟩) ∧
        (r = .ok () → g = ⟨some (n, i, d ++ b), pub, o⟩))
      ⟨some (n, i, d), pub, o⟩ (flushAndClose i b) := by
  refine ⟨⟨n, d, rfl⟩, fun r g' hg => ?_⟩
  obtain ⟨tmp, d', h1, k, h2, rfl⟩ := hg
  simp only [Option.some.injEq, Prod.mk.injEq, true_and] at h1
  obtain ⟨rfl, rfl⟩ := h1
  refine ⟨trivial, fun r' g' hg => ?_⟩
  have : g' = ⟨some (n, i, d ++ b.take k), pub, o⟩ := hg
  subst this
  cases r with
  | error e => exact ⟨⟨_, rfl⟩, fun h => by cases h⟩
  | ok u =>
    cases r' with
    | error e => exact ⟨⟨_, rfl⟩, fun h => by cases h⟩
    | ok u => exact ⟨⟨_, rfl⟩, fun h => by rw [List.take_of_length_le (h2 rfl)]⟩

theorem safe_writeTemp {n : Str} {early i : Nat} {b : Bytes} {pub : Bool} {o : Option (Nat × Str)} :
    WSafe tgt ua win St (fun r g => (∃ d', g = ⟨some (n, i, d'), pub, o⟩) ∧
        (r = .ok () → g = ⟨some (n, i, b), pub, o⟩))
      ⟨some (n, i, []), pub, o⟩ (writeTemp early i b) := by
  refine ⟨⟨n, [], rfl⟩, fun r g' hg => ?_⟩
  obtain ⟨tmp, d', h1, k, h2, rfl⟩ := hg
  simp only [Option.some.injEq, Prod.mk.injEq, true_and] at h1
  obtain ⟨rfl, rfl⟩ := h1
  have hbad : ∀ d, WSafe tgt ua win St (fun r g => (∃ d', g = ⟨some (n, i, d'), pub, o⟩) ∧
        (r = .ok () → g = ⟨some (n, i, b), pub, o⟩)) ⟨some (n, i, d), pub, o⟩
      ((flushAndClose i (b.drop early)).bind fun _ => Prog.raise .osError) := fun d =>
    Safe.bind safe_flush (fun _ g hg => ⟨hg.1, fun h => by cases h⟩) (fun _ g hg => ⟨hg.1, fun h => by cases h⟩)
  cases r with
  | error e => exact hbad _
  | ok u =>
    refine ⟨trivial, fun r' g' hg => ?_⟩
    have : g' = ⟨some (n, i, [] ++ (b.take early).take k), pub, o⟩ := hg
    subst this
    cases r' with
    | error e => exact hbad _
    | ok u =>
      refine Safe.weaken safe_flush fun r g hg => ⟨hg.1, fun h => ?_⟩
      have := hg.2 h
      rw [List.take_of_length_le (h2 rfl), List.nil_append, List.take_append_drop] at this
      exact this

theorem safe_renameInto {tmp n : Str} {i : Nat} {b : Bytes} {o : Option (Nat × Str)} (ht : tgt = some (b, n))
    (hu : win = true → ua n) :
    WSafe tgt ua win St (fun r g => (r = .ok () → g = ⟨.none, true, o⟩) ∧
        ∀ e, r = .error e → g = ⟨some (tmp, i, b), false, o⟩)
      ⟨some (tmp, i, b), false, o⟩ (renameInto tmp n) := by
  have h1 : WSafe tgt ua win St (fun r g => (r = .ok () → g = ⟨.none, true, o⟩) ∧
        ∀ e, r = .error e → g = ⟨some (tmp, i, b), false, o⟩)
      ⟨some (tmp, i, b), false, o⟩ (renameAgain tmp n) := by
    refine ⟨⟨rfl, i, b, rfl, ht⟩, fun r g' hg => ?_⟩
    cases r with
    | ok u =>
      have : g' = ⟨.none, true, o⟩ := hg
      exact ⟨fun _ => this, fun e h => by cases h⟩
    | error e => exact ⟨fun h => (by cases h), fun e h => hg.1⟩
  refine ⟨⟨rfl, i, b, rfl, ht⟩, fun r g' hg => ?_⟩
  cases r with
  | ok u =>
    have : g' = ⟨.none, true, o⟩ := hg
    exact ⟨fun _ => this, fun e h => by cases h⟩
  | error e =>
    obtain ⟨rfl, hw⟩ := hg
    cases e with
    | eexist =>
      refine ⟨hu (hw rfl), fun r g' hg => ?_⟩
      have : g' = ⟨some (tmp, i, b), false, o⟩ := hg
      subst this
      cases r with
      | ok u => exact h1
      | error e => cases e <;> first | exact h1 | exact ⟨fun h => (by cases h), fun e h => rfl⟩
    | _ => exact ⟨fun h => (by cases h), fun e h => rfl⟩

/-- the content and name of the file an operation is to make -/
def target (W : World) : Op → Option (Bytes × Str)
  | .storeAssociation url a => match a.serialize, assocName W.sha1 url a.handle with
    | .ok s, .ok n => some (Utf8.encode s, n)
    | _, _ => none
  | _ => none

theorem safe_store (W : World) (u : Str) (a : Assoc)
    (hu : win = true → ∀ b n, target W (.storeAssociation u a) = some (b, n) → ua n) :
    WSafe (target W (.storeAssociation u a)) ua win St
      (fun r g => g.held = .none ∧ g.opened = .none ∧ (r = .ok () ↔ g.pub = true)) Ghost.none
      (storeAssociation W.sha1 W.early u a) := by
  unfold storeAssociation
  cases hs : a.serialize with
  | error e => exact ⟨rfl, rfl, by simp [Ghost.none]⟩
  | ok s =>
    simp only
    cases hn : assocName W.sha1 u a.handle with
    | error e => exact ⟨rfl, rfl, by simp [Ghost.none]⟩
    | ok name =>
      have ht : target W (.storeAssociation u a) = some (Utf8.encode s, name) := by simp [target, hs, hn]
      refine Safe.bind safe_mktemp ?_ ?_
      · rintro ⟨n, i⟩ g hg
        subst hg
        refine Safe.tryExcept (Q := fun r g => (r = .ok () → g = ⟨.none, true, .none⟩) ∧
          ∀ e, r = .error e → ∃ d, g = ⟨some (n, i, d), false, .none⟩) ?_ ?_ ?_
        · refine Safe.bind safe_writeTemp ?_ ?_
          · intro _ g hg
            rw [hg.2 rfl]
            refine Safe.weaken (safe_renameInto ht fun hw => hu hw _ name ht) fun r g hg => ⟨hg.1, fun e he => ⟨_, hg.2 e he⟩⟩
          · intro e g hg
            exact ⟨fun h => (by cases h), fun e _ => hg.1⟩
        · intro _ g hg
          rw [hg.1 rfl]
          exact ⟨rfl, rfl, by simp⟩
        · intro e g hg
          obtain ⟨d, rfl⟩ := hg.2 e rfl
          exact Safe.bind safe_removeTemp (fun _ g hg => by rw [hg]; exact ⟨rfl, rfl, by simp⟩)
            (fun _ g hg => by rw [hg]; exact ⟨rfl, rfl, by simp⟩)
      · intro e g hg
        have : g = ⟨.none, false, .none⟩ := hg
        rw [this]
        exact ⟨rfl, rfl, by simp⟩

/-! ## Reading -/

/-- the ghost state of a process that holds no temporary file -/
def Idle (g : Ghost) : Prop := g.held = .none

theorem safe_pure {Q : Except PyErr α → Ghost → Prop} {g : Ghost} {a : α} (h : Q (.ok a) g) :
    WSafe tgt ua win St Q g (pure a) := h

theorem safe_removeAssoc {n : Str} {g : Ghost} (hu : ua n) :
    WSafe tgt ua win St (fun _ g' => g' = g) g (removeIfPresent .assocs n) := by
  refine ⟨hu, fun r g' hg => ?_⟩
  have : g' = g := hg
  subst this
  cases r with
  | ok u => rfl
  | error e => cases e <;> rfl

theorem safe_readAll {i : Nat} {n : Str} {g : Ghost} (ho : g.opened = some (i, n)) :
    WSafe tgt ua win St (fun r g' => g' = g ∧ ∀ b, r = .ok b → St n b) g (readAll i) := by
  refine ⟨⟨n, ho⟩, fun r g' hg => ?_⟩
  cases r with
  | error e =>
    have : g' = g := hg
    subst this
    refine ⟨trivial, fun r g2 hg => ?_⟩
    have : g2 = g' := hg
    subst this
    cases r with
    | ok u => exact ⟨rfl, fun b h => by cases h⟩
    | error e => exact ⟨rfl, fun b h => by cases h⟩
  | ok b =>
    obtain ⟨rfl, hb⟩ := hg
    refine ⟨trivial, fun r g2 hg => ?_⟩
    have : g2 = g' := hg
    subst this
    cases r with
    | ok u => exact ⟨rfl, fun b' h => by cases h; exact hb n ho⟩
    | error e => exact ⟨rfl, fun b h => by cases h⟩

/-- what a process may make of a file opened under a name -/
def FromFile (X : ExtraDigits) (St : Str → Bytes → Prop) (n : Str) (a : Assoc) : Prop :=
  ∃ b, St n b ∧ parseFile X b = .ok a

theorem safe_getOne (X : ExtraDigits) (c : Clock) (n : Str) (g : Ghost) (hg : Idle g) (hu : ∀ n, ua n) :
    WSafe tgt ua win St (fun r g => Idle g ∧ ∀ a, r = .ok (some a) → FromFile X St n a) g (getOne X c n) := by
  refine ⟨trivial, fun r g' h => ?_⟩
  cases r with
  | error e =>
    have : g' = g := h
    subst this
    cases e <;> exact ⟨hg, fun a h => by cases h⟩
  | ok i =>
    have : g' = { g with opened := some (i, n) } := h
    subst this
    refine Safe.bind (safe_readAll (n := n) rfl) ?_ ?_
    · rintro b g' ⟨rfl, hb⟩
      have hb := hb b rfl
      unfold checkRead
      split
      · split
        · exact Safe.bind (safe_removeAssoc (hu _)) (fun _ g h => by subst h; exact ⟨hg, fun a h => by cases h⟩)
            (fun _ g h => by subst h; exact ⟨hg, fun a h => by cases h⟩)
        · exact ⟨hg, fun a h => by cases h⟩
      · next a ha =>
        refine ⟨trivial, fun now g2 h => ?_⟩
        have : g2 = { g with opened := some (i, n) } := h
        subst this
        simp only [checkExpiry]
        split
        · exact Safe.bind (safe_removeAssoc (hu _)) (fun _ g h => by subst h; exact ⟨hg, fun a h => by cases h⟩)
            (fun _ g h => by subst h; exact ⟨hg, fun a h => by cases h⟩)
        · refine ⟨hg, fun a' h => ?_⟩
          have : a = a' := by cases h; rfl
          subst this
          exact ⟨b, hb, ha⟩
    · rintro e g' ⟨rfl, -⟩
      exact ⟨hg, fun a h => by cases h⟩

theorem safe_getMany (X : ExtraDigits) (c : Clock) (l : List Str) (g : Ghost) (hg : Idle g) (hu : ∀ n, ua n) :
    WSafe tgt ua win St (fun r g => Idle g ∧ ∀ as, r = .ok as → ∀ a ∈ as, ∃ n ∈ l, FromFile X St n a) g
      (getMany X c l) := by
  induction l generalizing g with
  | nil => exact ⟨hg, fun as h => by cases h; simp⟩
  | cons n r ih =>
    refine Safe.bind (safe_getOne X c n g hg hu) ?_ ?_
    · intro a g ⟨hg, ha⟩
      refine Safe.bind (ih g hg) ?_ ?_
      · intro as g ⟨hg, has⟩
        refine ⟨hg, fun as' h a' ha' => ?_⟩
        have : as' = a.toList ++ as := by cases h; rfl
        subst this
        rcases List.mem_append.1 ha' with h | h
        · cases a with
          | none => simp at h
          | some b =>
            simp only [Option.toList_some, List.mem_singleton] at h
            subst h
            exact ⟨n, List.mem_cons_self, ha _ rfl⟩
        · obtain ⟨m, hm, h⟩ := has as rfl a' h
          exact ⟨m, List.mem_cons_of_mem _ hm, h⟩
      · intro e g ⟨hg, _⟩
        exact ⟨hg, fun as h => by cases h⟩
    · intro e g ⟨hg, _⟩
      exact ⟨hg, fun as h => by cases h⟩

/-- what `getAssociation(url, handle)` may return -/
def Answerable (W : World) (St : Str → Bytes → Prop) (url : Str) (handle : Option Str) (a : Assoc) : Prop :=
  ∃ n0 n, assocName W.sha1 url (handle.getD []) = .ok n0 ∧ FromFile W.digits St n a ∧
    (handle.getD [] ≠ [] → n = n0) ∧ (handle.getD [] = [] → startsWith n (basename n0) = true)

theorem safe_get (W : World) (u : Str) (h : Option Str) (g : Ghost) (hg : Idle g) (hu : ∀ n, ua n) :
    WSafe tgt ua win St (fun r g => Idle g ∧ ∀ a, r = .ok (some a) → Answerable W St u h a) g
      (getAssociation W.sha1 W.digits W.clock u h) := by
  unfold getAssociation
  cases hn : assocName W.sha1 u (h.getD []) with
  | error e => exact ⟨hg, fun a h => by cases h⟩
  | ok n0 =>
    simp only
    split
    · next he =>
      refine ⟨trivial, fun r g' hr => ?_⟩
      have : g' = g := hr
      subst this
      cases r with
      | error e => exact ⟨hg, fun a h => by cases h⟩
      | ok l =>
        refine Safe.bind (safe_getMany _ _ _ g' hg hu) ?_ ?_
        · intro as g ⟨hg, has⟩
          refine ⟨hg, fun a ha => ?_⟩
          have hm : a ∈ as := by
            exact ((SqlStore.latest_ok as (some a) ha).2 a rfl).1
          obtain ⟨n, hn', hf⟩ := has as rfl a hm
          exact ⟨n0, n, hn, hf, fun h => absurd he h, fun _ => (List.mem_filter.1 hn').2⟩
        · intro e g ⟨hg, _⟩
          exact ⟨hg, fun a h => by cases h⟩
    · next he =>
      refine Safe.weaken (safe_getOne _ _ n0 g hg hu) fun r g ⟨hg, hr⟩ => ⟨hg, fun a ha => ?_⟩
      exact ⟨n0, n0, hn, hr a ha, fun _ => rfl, fun h => absurd h he⟩

theorem safe_remove (W : World) (u h : Str) (g : Ghost) (hg : Idle g) (hu : ∀ n, ua n) :
    WSafe tgt ua win St (fun _ g => Idle g) g (removeAssociation W.sha1 W.digits W.clock u h) := by
  refine Safe.bind (safe_get W u _ g hg hu) ?_ (fun e g h => h.1)
  intro a g ⟨hg, _⟩
  split
  · exact hg
  · split
    · exact hg
    · exact Safe.bind (safe_removeAssoc (hu _)) (fun _ g h => by subst h; exact hg)
        (fun _ g h => by subst h; exact hg)

theorem safe_readAssocs (X : ExtraDigits) (l : List Str) (g : Ghost) (hg : Idle g) (hu : ∀ n, ua n) :
    WSafe tgt ua win St (fun _ g => Idle g) g (readAssocs X l) := by
  induction l generalizing g with
  | nil => exact hg
  | cons n r ih =>
    refine Safe.bind (Q := fun _ g => Idle g) ?_ ?_ (fun e g h => h)
    · refine ⟨trivial, fun r g' h => ?_⟩
      cases r with
      | error e =>
        have : g' = g := h
        subst this
        cases e <;> exact hg
      | ok i =>
        have : g' = { g with opened := some (i, n) } := h
        subst this
        refine Safe.bind (safe_readAll (n := n) rfl) ?_ ?_
        · rintro b g' ⟨rfl, -⟩
          split
          · split
            · exact Safe.bind (safe_removeAssoc (hu _)) (fun _ g h => by subst h; exact hg)
                (fun _ g h => by subst h; exact hg)
            · exact hg
          · exact hg
        · rintro e g' ⟨rfl, -⟩
          exact hg
    · intro x g hg
      exact Safe.bind (ih g hg) (fun _ g h => h) (fun _ g h => h)

theorem safe_removeExpired (c : Clock) (l : List (Str × Assoc)) (g : Ghost) (hg : Idle g) (hu : ∀ n, ua n) :
    WSafe tgt ua win St (fun _ g => Idle g) g (removeExpired c l) := by
  induction l generalizing g with
  | nil => exact hg
  | cons p r ih =>
    obtain ⟨n, a⟩ := p
    refine ⟨trivial, fun now g' h => ?_⟩
    have : g' = g := h
    subst this
    simp only []
    split
    · refine Safe.bind (safe_removeAssoc (hu _)) (fun _ g h => ?_) (fun _ g h => by subst h; exact hg)
      subst h
      exact Safe.bind (ih _ hg) (fun _ g h => h) (fun _ g h => h)
    · exact ih _ hg

theorem safe_removeStale (X : ExtraDigits) (c : Clock) (now : Nat) (l : List Str) (g : Ghost) (hg : Idle g) :
    WSafe tgt ua win St (fun _ g => Idle g) g (removeStale X c now l) := by
  induction l with
  | nil => exact hg
  | cons n r ih =>
    unfold removeStale
    split
    · exact hg
    · split
      · refine Safe.bind (Q := fun _ g' => g' = g) ⟨trivial, fun r g' h => ?_⟩ (fun _ g' h => ?_)
          (fun _ g' h => by subst h; exact hg)
        · have : g' = g := h
          subst this
          cases r with
          | ok u => rfl
          | error e => cases e <;> rfl
        · subst h
          exact Safe.bind ih (fun _ g h => h) (fun _ g h => h)
      · exact ih

/-- what may come out of an operation -/
def ResultOk (W : World) (St : Str → Bytes → Prop) : Op → Except PyErr Answer → Prop
  | .getAssociation url h, r => ∀ a, r = .ok (.assoc (some a)) → Answerable W St url h a
  | _, _ => True

theorem safe_program (W : World) (op : Op) :
    WSafe (target W op) (fun _ => True) win St (fun r _ => ResultOk W St op r) Ghost.none (program W op) := by
  cases op with
  | storeAssociation u a =>
    exact Safe.bind (safe_store W u a fun _ _ _ _ => trivial) (fun _ _ _ => trivial) (fun _ _ _ => trivial)
  | getAssociation u h =>
    refine Safe.bind (safe_get W u h Ghost.none rfl fun _ => trivial) ?_ ?_
    · intro a g ⟨_, hr⟩ a' ha'
      have : a = some a' := by cases ha'; rfl
      subst this
      exact hr a' rfl
    · intro e g _ a h; cases h
  | removeAssociation u h =>
    exact Safe.bind (safe_remove W u h Ghost.none rfl fun _ => trivial) (fun _ _ _ => trivial) (fun _ _ _ => trivial)
  | useNonce u t s =>
    refine Safe.bind (Q := fun _ _ => True) ⟨trivial, fun now g' _ => ?_⟩ (fun _ _ _ => trivial) (fun _ _ _ => trivial)
    unfold useNonceAt
    split
    · trivial
    · split
      · trivial
      · refine ⟨trivial, fun r g2 _ => ?_⟩
        cases r with
        | ok u =>
          refine ⟨trivial, fun r g3 _ => ?_⟩
          cases r <;> trivial
        | error e => cases e <;> trivial
  | cleanupNonces =>
    refine Safe.bind (Q := fun _ _ => True) ⟨trivial, fun r g' h => ?_⟩ (fun _ _ _ => trivial) (fun _ _ _ => trivial)
    have hg : g' = Ghost.none := h
    subst hg
    cases r with
    | error e => trivial
    | ok l =>
      refine ⟨trivial, fun now g2 h => ?_⟩
      have hg : g2 = Ghost.none := h
      subst hg
      exact Safe.weaken (safe_removeStale _ _ _ _ Ghost.none rfl) fun _ _ _ => trivial
  | cleanupAssociations =>
    refine Safe.bind (Q := fun _ _ => True) ⟨trivial, fun r g' h => ?_⟩ (fun _ _ _ => trivial) (fun _ _ _ => trivial)
    have hg : g' = Ghost.none := h
    subst hg
    cases r with
    | error e => trivial
    | ok l =>
      refine Safe.bind (safe_readAssocs _ _ Ghost.none rfl fun _ => trivial) ?_ (fun _ _ _ => trivial)
      intro as g hg
      exact Safe.weaken (safe_removeExpired _ _ _ hg fun _ => trivial) fun _ _ _ => trivial

end FileStore
