import Verif.Lemmas.MemStore
/-! # C17, C20: the memory store

Specification: `Verif/Spec/Store.lean`.  `answers (step c) init hist` are the answers a fresh store gives
to a history; they are read below at the event that follows an arbitrary beginning `pre`. -/

namespace Props
open Py Association Store MemStore

/-- a clock with a thousand ticks to the second -/
def clock0 : Clock := ⟨1000, by decide⟩

/-- **C17** exact answer.  With a clock that never runs backwards, `useNonce(url, timestamp, salt)` is true
    exactly when the timestamp is within five hours of the clock and no earlier call with the same three
    values answered true, whatever else was called in between, cleanups included. -/
theorem c17_exact (c : Clock) (pre post : List Event) (now : Nat) (url : Str) (timestamp : Int) (salt : Str)
    (hm : Monotone (pre ++ (now, .useNonce url timestamp salt) :: post)) :
    (answers (step c) init (pre ++ (now, .useNonce url timestamp salt) :: post))[pre.length]? =
      some (.bool true) ↔
    c.within 18000 now timestamp ∧ ¬ NonceTaken (step c) init pre url timestamp salt := by
  have hm1 : Monotone (pre ++ [(now, .useNonce url timestamp salt)]) := by
    unfold Monotone at *
    refine hm.sublist ?_
    exact List.Sublist.append (List.Sublist.refl _) (by simp)
  obtain ⟨hl, hle⟩ := hm1.snoc
  obtain ⟨i1, i2, -⟩ := nonces_taken c pre hl url timestamp salt
  rw [answers_getElem]
  show some (Answer.bool (useNonce c now (after (step c) init pre) url timestamp salt).2) = _ ↔ _
  rw [Option.some.injEq, Answer.bool.injEq, useNonce_true]
  show c.within 18000 now timestamp ∧ _ ↔ _
  constructor
  · rintro ⟨hw, hn⟩
    refine ⟨hw, fun ht => ?_⟩
    rcases i2 ht with h | ⟨x, hx, hlt⟩
    · exact hn h
    · have := hle x hx
      have hs : Nonce.SKEW = 18000 := by decide
      rw [hs] at hlt
      unfold Clock.within at hw
      simp only at this
      omega
  · rintro ⟨hw, hn⟩
    exact ⟨hw, fun h => hn (i1 h)⟩

/-- **C17** at most once. -/
theorem c17_once (c : Clock) (a b d : List Event) (now now' : Nat) (url : Str) (timestamp : Int) (salt : Str)
    (hm : Monotone (a ++ (now, .useNonce url timestamp salt) :: (b ++ (now', .useNonce url timestamp salt) :: d)))
    (h : (answers (step c) init (a ++ (now, .useNonce url timestamp salt) ::
        (b ++ (now', .useNonce url timestamp salt) :: d)))[a.length]? = some (.bool true)) :
    (answers (step c) init (a ++ (now, .useNonce url timestamp salt) ::
        (b ++ (now', .useNonce url timestamp salt) :: d)))[a.length + 1 + b.length]? ≠ some (.bool true) := by
  intro h2
  have e : a ++ (now, Op.useNonce url timestamp salt) :: (b ++ (now', .useNonce url timestamp salt) :: d) =
      (a ++ (now, .useNonce url timestamp salt) :: b) ++ (now', .useNonce url timestamp salt) :: d := by simp
  have el : a.length + 1 + b.length = (a ++ (now, Op.useNonce url timestamp salt) :: b).length := by
    simp; omega
  rw [answers_getElem, Option.some.injEq] at h
  rw [e] at hm h2
  rw [el, c17_exact c _ _ _ _ _ _ hm] at h2
  exact h2.2 ⟨a, now, b, rfl, h⟩

example : Monotone ([(5000, Op.cleanupNonces)] ++ (20000, .useNonce t!"http://op/" 20 t!"x") ::
    ([(38000000, .cleanupNonces)] ++ (38000001, .useNonce t!"http://op/" 20 t!"x") :: [])) := by decide

example : answers (step clock0) init
    [(20000, .useNonce t!"http://op/" 20 t!"x"), (20001, .useNonce t!"http://op/" 20 t!"x"),
     (20001, .useNonce t!"http://op2/" 20 t!"x"), (18020000, .cleanupNonces), (18020001, .cleanupNonces),
     (18020001, .useNonce t!"http://op/" 20 t!"x")] =
    [.bool true, .bool false, .bool true, .count 0, .count 2, .bool false] := by decide

/-- **C17** the clock matters: after a cleanup a clock set back lets a nonce in a second time. -/
theorem c17_clock_back :
    ∃ hist : List Event, ¬ Monotone hist ∧
      answers (step clock0) init hist = [.bool true, .count 1, .bool true] :=
  ⟨[(0, .useNonce t!"u" 0 t!"s"), (18000001, .cleanupNonces), (0, .useNonce t!"u" 0 t!"s")],
    by decide, by decide⟩

/-- **C20** lookup by handle: the last association stored under that server and handle, unless it was
    removed or cleaned up since. -/
theorem c20_get (c : Clock) (pre post : List Event) (now : Nat) (url handle : Str) :
    (answers (step c) init (pre ++ (now, .getAssociation url (some handle)) :: post))[pre.length]? =
      some (.assoc (held c pre url handle)) := by
  rw [answers_getElem, ← after_view]
  exact congrArg (fun x => some (Answer.assoc x)) (getAssociation_some _ (after_inv c pre) url handle)

/-- **C20** lookup without handle: nothing if the server has nothing, else an association of that server
    issued last. -/
theorem c20_best (c : Clock) (pre post : List Event) (now : Nat) (url : Str) :
    ∃ r, (answers (step c) init (pre ++ (now, .getAssociation url none) :: post))[pre.length]? =
        some (.assoc r) ∧
      (r = none ↔ ∀ h, held c pre url h = none) ∧
      (∀ a, r = some a → (∃ h, held c pre url h = some a) ∧
        ∀ h' a', held c pre url h' = some a' → a'.issued ≤ a.issued) := by
  obtain ⟨h1, h2⟩ := getAssociation_none _ (after_inv c pre) url
  rw [after_view] at h1 h2
  exact ⟨_, answers_getElem _ _ _ _ _, h1, h2⟩

/-- **C20** removal answers whether there was something to remove. -/
theorem c20_remove (c : Clock) (pre post : List Event) (now : Nat) (url handle : Str) :
    (answers (step c) init (pre ++ (now, .removeAssociation url handle) :: post))[pre.length]? =
      some (.bool (held c pre url handle).isSome) := by
  rw [answers_getElem, ← after_view]
  exact congrArg (fun x => some (Answer.bool x)) (removeAssociation_spec _ (after_inv c pre) url handle).2.2.2

/-- **C20** cleanup answers the number of expired associations (`ks` lists them, each once).  That it
    removes exactly those is part of `held`. -/
theorem c20_cleanup (c : Clock) (pre post : List Event) (now : Nat) :
    ∃ ks : List (Str × Str), ks.Nodup ∧
      (∀ u h, (u, h) ∈ ks ↔ ∃ a, held c pre u h = some a ∧ expired (c.seconds now) a) ∧
      (answers (step c) init (pre ++ (now, .cleanupAssociations) :: post))[pre.length]? =
        some (.count ks.length) := by
  obtain ⟨h1, h2⟩ := expiredPairs_spec (c.seconds now) _ (after_inv c pre)
  rw [after_view] at h2
  refine ⟨_, h1, h2, ?_⟩
  rw [answers_getElem]
  exact congrArg (fun n => some (Answer.count n)) (cleanup_count c now _)

/-- two associations of one server, one of another -/
def stored0 : List Event :=
  [(1000, .storeAssociation t!"u" ⟨t!"h1", [], 0, 5, t!"HMAC-SHA1"⟩),
   (1000, .storeAssociation t!"u" ⟨t!"h2", [], 1, 9, t!"HMAC-SHA1"⟩),
   (1000, .storeAssociation t!"v" ⟨t!"h1", [], 1, 2, t!"HMAC-SHA1"⟩)]

example : answers (step clock0) init (stored0 ++
    [(1000, .getAssociation t!"u" (some t!"h1")), (1000, .getAssociation t!"u" none),
     (4999, .cleanupAssociations), (5000, .cleanupAssociations), (5000, .removeAssociation t!"u" t!"h1"),
     (5000, .removeAssociation t!"u" t!"h2"), (5000, .getAssociation t!"u" none)]) =
    [.nothing, .nothing, .nothing, .assoc (some ⟨t!"h1", [], 0, 5, t!"HMAC-SHA1"⟩),
     .assoc (some ⟨t!"h2", [], 1, 9, t!"HMAC-SHA1"⟩), .count 1, .count 1, .bool false, .bool true,
     .assoc none] := by decide

/-- **C20** a lookup may return an expired association: nothing in the memory store looks at the clock
    until `cleanupAssociations` is called. -/
theorem c20_may_be_expired :
    ∃ hist : List Event, ∃ now a, expired (clock0.seconds now) a ∧
      answers (step clock0) init (hist ++ [(now, .getAssociation t!"u" none)]) = [.nothing, .assoc (some a)] :=
  ⟨[(1000, .storeAssociation t!"u" ⟨t!"h1", [], 0, 5, t!"HMAC-SHA1"⟩)], 9000,
    ⟨t!"h1", [], 0, 5, t!"HMAC-SHA1"⟩, by decide, by decide⟩

end Props
