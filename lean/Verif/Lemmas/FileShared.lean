import Verif.Lemmas.FileAssoc
import Verif.Lemmas.FileNonce
/-! # Association files under concurrency: the invariant -/

namespace FileStore
open Py Files Store Association

/-- what one call did to the association side of the file system, and to the caller's ghost state -/
inductive Effect (E : Env) (tgt : Option (Bytes × Str)) (ua : Str → Prop) (fs : FS) (g : Ghost) : FS → Ghost → Prop where
  | same {fs' : FS} (ht : fs'.temp = fs.temp) (ha : fs'.assocs = fs.assocs) (hd : fs'.data = fs.data)
      (hn : fs'.next = fs.next) : Effect E tgt ua fs g fs' g
  | opened {f : Nat} {n : Str} (h : Dict.get? fs.assocs n = some f) :
      Effect E tgt ua fs g fs { g with opened := some (f, n) }
  | wrote {fs' : FS} {tmp : Str} {i : Nat} {d d' : Bytes} (hh : g.held = some (tmp, i, d))
      (ht : fs'.temp = fs.temp) (ha : fs'.assocs = fs.assocs)
      (hd : ∀ j, fs'.data j = if j = i then d' else fs.data j) (hn : fs'.next = fs.next) :
      Effect E tgt ua fs g fs' { g with held := some (tmp, i, d') }
  | made {fs' : FS} {tmp : Str} (hh : g.held = none) (hf : tmp ∉ Dict.keys fs.temp)
      (ht : fs'.temp = Dict.set fs.temp tmp fs.next) (ha : fs'.assocs = fs.assocs)
      (hd : ∀ j, fs'.data j = if j = fs.next then [] else fs.data j) (hn : fs'.next = fs.next + 1) :
      Effect E tgt ua fs g fs' { g with held := some (tmp, fs.next, []) }
  | renamed {fs' : FS} {tmp n : Str} {i : Nat} {b : Bytes} (hh : g.held = some (tmp, i, b))
      (hp : g.pub = false) (hb : tgt = some (b, n))
      (ht : fs'.temp = Dict.del fs.temp tmp) (ha : fs'.assocs = Dict.set fs.assocs n i)
      (hd : fs'.data = fs.data) (hn : fs'.next = fs.next) :
      Effect E tgt ua fs g fs' { g with held := none, pub := true }
  | dropped {fs' : FS} {tmp : Str} {i : Nat} {b : Bytes} (hh : g.held = some (tmp, i, b))
      (ht : fs'.temp = Dict.del fs.temp tmp ∨ (fs'.temp = fs.temp ∧ E.faulty (.unlink .temp tmp))) (ha : fs'.assocs = fs.assocs)
      (hd : fs'.data = fs.data) (hn : fs'.next = fs.next) :
      Effect E tgt ua fs g fs' { g with held := none }
  | removed {fs' : FS} {n : Str} (hu : ua n) (ht : fs'.temp = fs.temp) (ha : fs'.assocs = Dict.del fs.assocs n)
      (hd : fs'.data = fs.data) (hn : fs'.next = fs.next) : Effect E tgt ua fs g fs' g

/-- the ghost state of one process fits the file system -/
structure Fits (St : Str → Bytes → Prop) (fs : FS) (g : Ghost) : Prop where
  held : ∀ tmp i b, g.held = some (tmp, i, b) → Dict.get? fs.temp tmp = some i ∧ fs.data i = b ∧ i < fs.next
  opened : ∀ i n, g.opened = some (i, n) → St n (fs.data i) ∧ i < fs.next

theorem exec_next {E : Env} {t : Nat} {fs fs' : FS} {c : Call} {r : c.Reply} (hx : Exec E t fs c r fs')
    {tgt : Option (Bytes × Str)} {ua : Str → Prop} {g : Ghost} (hn : need tgt ua g c) {St : Str → Bytes → Prop}
    (hf : Fits St fs g) :
    ∃ g', next E.win St g c r g' ∧ Effect E tgt ua fs g fs' g' := by
  have same : Effect E tgt ua fs g fs g := .same rfl rfl rfl rfl
  cases hx with
  | fault c r hft h =>
    cases c with
    | unlink d n =>
      cases d with
      | temp =>
        obtain ⟨i, b, hh⟩ := hn
        exact ⟨_, rfl, .dropped hh (.inr ⟨rfl, hft⟩) rfl rfl rfl⟩
      | nonces => exact ⟨g, rfl, same⟩
      | assocs => exact ⟨g, rfl, same⟩
    | write i b =>
      obtain ⟨tmp, d, hh⟩ := hn
      have hr : r = .error .other := by simpa [Call.fault] using h.symm
      subst hr
      refine ⟨_, ⟨tmp, d, hh, 0, fun h => (by cases h), rfl⟩, .wrote hh rfl rfl (fun j => ?_) rfl⟩
      split
      · next hj => subst hj; rw [(hf.held _ _ _ hh).2.1]; simp
      · rfl
    | rename tmp n =>
      have hr : r = .error .other := by simpa [Call.fault] using h.symm
      subst hr
      exact ⟨g, ⟨rfl, fun h => by cases h⟩, same⟩
    | time => simp [Call.fault] at h
    | openExcl n => exact ⟨g, rfl, same⟩
    | close => exact ⟨g, rfl, same⟩
    | listdir d => exact ⟨g, rfl, same⟩
    | mkstemp =>
      have hr : r = .error .other := by simpa [Call.fault] using h.symm
      subst hr
      exact ⟨g, rfl, same⟩
    | fdopen => exact ⟨g, rfl, same⟩
    | fsync i => exact ⟨g, rfl, same⟩
    | openRead n =>
      have hr : r = .error .other := by simpa [Call.fault] using h.symm
      subst hr
      exact ⟨g, rfl, same⟩
    | read i =>
      have hr : r = .error .other := by simpa [Call.fault] using h.symm
      subst hr
      exact ⟨g, rfl, same⟩
  | time => exact ⟨g, rfl, same⟩
  | openExcl n h => exact ⟨g, rfl, .same rfl rfl rfl rfl⟩
  | openExclExists n h => exact ⟨g, rfl, same⟩
  | close => exact ⟨g, rfl, same⟩
  | listdir d l h => exact ⟨g, rfl, same⟩
  | unlink d n h =>
    cases d with
    | nonces => exact ⟨g, rfl, .same rfl rfl rfl rfl⟩
    | assocs => exact ⟨g, rfl, .removed (n := n) hn rfl rfl rfl rfl⟩
    | temp =>
      obtain ⟨i, b, hh⟩ := hn
      exact ⟨_, rfl, .dropped hh (.inl rfl) rfl rfl rfl⟩
  | unlinkNone d n h =>
    cases d with
    | nonces => exact ⟨g, rfl, same⟩
    | assocs => exact ⟨g, rfl, same⟩
    | temp =>
      obtain ⟨i, b, hh⟩ := hn
      refine absurd ((Dict.mem_keys_iff _ _).2 ?_) h
      rw [(hf.held _ _ _ hh).1]
      rfl
  | mkstemp n h => exact ⟨_, rfl, .made (tmp := n) hn h rfl rfl (fun j => rfl) rfl⟩
  | fdopen => exact ⟨g, rfl, same⟩
  | write i b =>
    obtain ⟨tmp, d, hh⟩ := hn
    refine ⟨_, ⟨tmp, d, hh, b.length, fun _ => Nat.le_refl _, rfl⟩, .wrote hh rfl rfl (fun j => ?_) rfl⟩
    rw [List.take_length, ← (hf.held _ _ _ hh).2.1]
    rfl
  | writePart i k b hft =>
    obtain ⟨tmp, d, hh⟩ := hn
    refine ⟨_, ⟨tmp, d, hh, k, fun h => (by cases h), rfl⟩, .wrote hh rfl rfl (fun j => ?_) rfl⟩
    rw [← (hf.held _ _ _ hh).2.1]
    rfl
  | fsync i => exact ⟨g, rfl, .same rfl rfl rfl rfl⟩
  | rename tmp n i h hw =>
    obtain ⟨hp, j, b, hh, hb⟩ := hn
    have hi : i = j := Option.some.inj (h.symm.trans (hf.held _ _ _ hh).1)
    subst hi
    exact ⟨_, rfl, .renamed hh hp hb rfl rfl rfl rfl⟩
  | renameExists tmp n hw h => exact ⟨g, ⟨rfl, fun _ => hw⟩, same⟩
  | renameNone tmp n h => exact ⟨g, ⟨rfl, fun h => (by cases h)⟩, same⟩
  | openRead n i h => exact ⟨_, rfl, .opened h⟩
  | openReadNone n h => exact ⟨g, rfl, same⟩
  | read i =>
    refine ⟨g, ⟨rfl, fun n ho => (hf.opened _ _ ho).1⟩, same⟩

/-- the file a process holds -/
def Holds (g : Ghost) (i : Nat) : Prop := ∃ tmp b, g.held = some (tmp, i, b)

/-- the invariant on the files: what names lead to is complete, and no one is writing to it -/
structure FInv (St : Str → Bytes → Prop) (fs : FS) (gh : Nat → Ghost) : Prop where
  wfT : Dict.WF fs.temp
  wfA : Dict.WF fs.assocs
  lt : ∀ tmp i, Dict.get? fs.temp tmp = some i → i < fs.next
  inj : ∀ tmp tmp' i, Dict.get? fs.temp tmp = some i → Dict.get? fs.temp tmp' = some i → tmp = tmp'
  assoc : ∀ n i, Dict.get? fs.assocs n = some i → St n (fs.data i) ∧ i < fs.next ∧ ∀ j, ¬ Holds (gh j) i
  fits : ∀ j, Fits St fs (gh j)
  uniq : ∀ j j' i, Holds (gh j) i → Holds (gh j') i → j = j'
  closed : ∀ j i n, (gh j).opened = some (i, n) → ∀ j', ¬ Holds (gh j') i

def put (gh : Nat → Ghost) (j : Nat) (g : Ghost) : Nat → Ghost := fun k => if k = j then g else gh k

theorem put_holds {gh : Nat → Ghost} {j : Nat} {g : Ghost} {i : Nat}
    (h : Holds g i → Holds (gh j) i) (k : Nat) (hk : Holds (put gh j g k) i) : Holds (gh k) i := by
  unfold put at hk
  split at hk
  · next e => subst e; exact h hk
  · exact hk

/-- dropping ghost knowledge keeps the invariant -/
theorem FInv.shrink {St : Str → Bytes → Prop} {fs : FS} {gh : Nat → Ghost} (h : FInv St fs gh) (j : Nat) (g : Ghost)
    (h1 : ∀ x, g.held = some x → (gh j).held = some x) (h2 : ∀ x, g.opened = some x → (gh j).opened = some x) :
    FInv St fs (put gh j g) := by
  have hh : ∀ i, Holds g i → Holds (gh j) i := fun i ⟨a, b, hab⟩ => ⟨a, b, h1 _ hab⟩
  refine ⟨h.wfT, h.wfA, h.lt, h.inj, fun n i hi => ?_, fun k => ?_, fun k k' i hk hk' => ?_, fun k i n hk k' hk' => ?_⟩
  · exact ⟨(h.assoc n i hi).1, (h.assoc n i hi).2.1, fun k hk => (h.assoc n i hi).2.2 k (put_holds (hh i) k hk)⟩
  · unfold put
    split
    · exact ⟨fun a b c hx => (h.fits j).held a b c (h1 _ hx), fun a b hx => (h.fits j).opened a b (h2 _ hx)⟩
    · exact h.fits k
  · exact h.uniq k k' i (put_holds (hh i) k hk) (put_holds (hh i) k' hk')
  · refine h.closed k i n ?_ k' (put_holds (hh i) k' hk')
    unfold put at hk
    split at hk
    · next e => subst e; exact h2 _ hk
    · exact hk

theorem FInv.effect {E : Env} {St : Str → Bytes → Prop} {fs fs' : FS} {gh : Nat → Ghost} (h : FInv St fs gh) (j : Nat)
    {tgt : Option (Bytes × Str)} {ua : Str → Prop} {g' : Ghost} (he : Effect E tgt ua fs (gh j) fs' g')
    (ht : ∀ b n, tgt = some (b, n) → St n b) : FInv St fs' (put gh j g') := by
  cases he with
  | same h1 h2 h3 h4 =>
    have : FInv St fs' gh := by
      refine ⟨?_, ?_, ?_, ?_, ?_, ?_, h.uniq, h.closed⟩
      · rw [h1]; exact h.wfT
      · rw [h2]; exact h.wfA
      · rw [h1, h4]; exact h.lt
      · rw [h1]; exact h.inj
      · rw [h2, h3, h4]; exact h.assoc
      · intro k
        refine ⟨?_, ?_⟩
        · rw [h1, h3, h4]; exact (h.fits k).held
        · rw [h3, h4]; exact (h.fits k).opened
    exact this.shrink j _ (fun _ h => h) (fun _ h => h)
  | opened hf =>
    next f n =>
    obtain ⟨a1, a2, a3⟩ := h.assoc _ _ hf
    have hh : ∀ i, Holds { gh j with opened := some (f, n) } i → Holds (gh j) i := fun i h => h
    refine ⟨h.wfT, h.wfA, h.lt, h.inj, fun n i hi => ?_, fun k => ?_, fun k k' i hk hk' => ?_, fun k i m hk k' hk' => ?_⟩
    · exact ⟨(h.assoc n i hi).1, (h.assoc n i hi).2.1, fun k hk => (h.assoc n i hi).2.2 k (put_holds (hh i) k hk)⟩
    · unfold put
      split
      · refine ⟨(h.fits j).held, fun i m hx => ?_⟩
        cases hx
        exact ⟨a1, a2⟩
      · exact h.fits k
    · exact h.uniq k k' i (put_holds (hh i) k hk) (put_holds (hh i) k' hk')
    · have hk' := put_holds (hh i) k' hk'
      unfold put at hk
      split at hk
      · cases hk; exact a3 k' hk'
      · exact h.closed k i m hk k' hk'
  | wrote hh h1 h2 h3 h4 =>
    next tmp i d d' =>
    have hme : Holds (gh j) i := ⟨_, _, hh⟩
    have hH : ∀ f, Holds { gh j with held := some (tmp, i, d') } f → Holds (gh j) f := by
      rintro f ⟨a, b, hab⟩
      cases hab
      exact hme
    have hdat : ∀ f, f ≠ i → fs'.data f = fs.data f := fun f hf => by rw [h3, if_neg hf]
    refine ⟨by rw [h1]; exact h.wfT, by rw [h2]; exact h.wfA, by rw [h1, h4]; exact h.lt, by rw [h1]; exact h.inj,
      fun n f hf => ?_, fun k => ?_, fun k k' f hk hk' => ?_, fun k f n hk k' hk' => ?_⟩
    · rw [h2] at hf
      obtain ⟨a1, a2, a3⟩ := h.assoc n f hf
      have : f ≠ i := by rintro rfl; exact a3 j hme
      rw [hdat f this, h4]
      exact ⟨a1, a2, fun k hk => a3 k (put_holds (hH f) k hk)⟩
    · have hop : ∀ k f n, (gh k).opened = some (f, n) → St n (fs'.data f) ∧ f < fs'.next := by
        intro k f n ho
        have : f ≠ i := by rintro rfl; exact h.closed k _ n ho j hme
        rw [hdat f this, h4]
        exact (h.fits k).opened f n ho
      unfold put
      split
      · refine ⟨fun a f b hx => ?_, fun f n hx => hop j f n hx⟩
        cases hx
        obtain ⟨b1, b2, b3⟩ := (h.fits j).held _ _ _ hh
        rw [h1, h4]
        exact ⟨b1, by rw [h3, if_pos rfl], b3⟩
      · next hkj =>
        refine ⟨fun a f b hx => ?_, fun f n hx => hop k f n hx⟩
        obtain ⟨b1, b2, b3⟩ := (h.fits k).held _ _ _ hx
        have : f ≠ i := by rintro rfl; exact hkj (h.uniq k j _ ⟨_, _, hx⟩ hme)
        rw [h1, h4, hdat f this]
        exact ⟨b1, b2, b3⟩
    · exact h.uniq k k' f (put_holds (hH f) k hk) (put_holds (hH f) k' hk')
    · refine h.closed k f n ?_ k' (put_holds (hH f) k' hk')
      unfold put at hk
      split at hk
      · next e => subst e; exact hk
      · exact hk
  | made hh hf h1 h2 h3 h4 =>
    next tmp =>
    have hdat : ∀ f, f < fs.next → fs'.data f = fs.data f := fun f hf => by rw [h3, if_neg (by omega)]
    have hget : ∀ a f, Dict.get? fs'.temp a = some f → (a = tmp ∧ f = fs.next) ∨
        (a ≠ tmp ∧ Dict.get? fs.temp a = some f) := by
      intro a f ha
      rw [h1, Dict.get?_set] at ha
      split at ha
      · next e => cases ha; exact .inl ⟨e.symm, rfl⟩
      · next e => exact .inr ⟨fun h => e h.symm, ha⟩
    have hH : ∀ k f, Holds (put gh j { gh j with held := some (tmp, fs.next, []) } k) f →
        (k = j ∧ f = fs.next) ∨ (k ≠ j ∧ Holds (gh k) f) := by
      intro k f hk
      unfold put at hk
      split at hk
      · next e => obtain ⟨a, b, hab⟩ := hk; cases hab; exact .inl ⟨e, rfl⟩
      · next e => exact .inr ⟨e, hk⟩
    have hlt : ∀ k f, Holds (gh k) f → f < fs.next := fun k f ⟨a, b, hab⟩ => ((h.fits k).held _ _ _ hab).2.2
    refine ⟨by rw [h1]; exact Dict.WF_set _ h.wfT _ _, by rw [h2]; exact h.wfA, ?_, ?_,
      fun n f hf => ?_, fun k => ?_, fun k k' f hk hk' => ?_, fun k f n hk k' hk' => ?_⟩
    · intro a f ha
      rcases hget a f ha with ⟨-, rfl⟩ | ⟨-, ha⟩
      · omega
      · have := h.lt a f ha; omega
    · intro a b f ha hb
      rcases hget a f ha with ⟨rfl, h5⟩ | ⟨-, ha⟩ <;> rcases hget b f hb with ⟨rfl, h6⟩ | ⟨-, hb⟩
      · rfl
      · have := h.lt b f hb; omega
      · have := h.lt a f ha; omega
      · exact h.inj a b f ha hb
    · rw [h2] at hf
      obtain ⟨a1, a2, a3⟩ := h.assoc n f hf
      rw [hdat f a2, h4]
      refine ⟨a1, by omega, fun k hk => ?_⟩
      rcases hH k f hk with ⟨-, rfl⟩ | ⟨-, hk⟩
      · omega
      · exact a3 k hk
    · have hop : ∀ k f n, (gh k).opened = some (f, n) → St n (fs'.data f) ∧ f < fs'.next := by
        intro k f n ho
        obtain ⟨b1, b2⟩ := (h.fits k).opened f n ho
        rw [hdat f b2, h4]
        exact ⟨b1, by omega⟩
      unfold put
      split
      · refine ⟨fun a f b hx => ?_, fun f n hx => hop j f n hx⟩
        cases hx
        refine ⟨by rw [h1, Dict.get?_set, if_pos rfl], by rw [h3, if_pos rfl], by omega⟩
      · refine ⟨fun a f b hx => ?_, fun f n hx => hop k f n hx⟩
        obtain ⟨b1, b2, b3⟩ := (h.fits k).held _ _ _ hx
        have : a ≠ tmp := by
          rintro rfl
          exact hf ((Dict.mem_keys_iff _ _).2 (by simp [b1]))
        rw [h1, h4, hdat f b3, Dict.get?_set, if_neg (fun h => this h.symm)]
        exact ⟨b1, b2, by omega⟩
    · rcases hH k f hk with ⟨rfl, h5⟩ | ⟨-, hk1⟩ <;> rcases hH k' f hk' with ⟨rfl, h6⟩ | ⟨-, hk'⟩
      · rfl
      · have := hlt _ _ hk'; omega
      · have := hlt _ _ hk1; omega
      · exact h.uniq k k' f hk1 hk'
    · have ho : (gh k).opened = some (f, n) := by
        unfold put at hk
        split at hk
        · next e => subst e; exact hk
        · exact hk
      rcases hH k' f hk' with ⟨-, rfl⟩ | ⟨-, hk'⟩
      · have := ((h.fits k).opened _ _ ho).2; omega
      · exact h.closed k f n ho k' hk'
  | renamed hh hp hb h1 h2 h3 h4 =>
    next tmp n i b =>
    obtain ⟨c1, c2, c3⟩ := (h.fits j).held _ _ _ hh
    have hme : Holds (gh j) i := ⟨_, _, hh⟩
    have hH : ∀ k f, Holds (put gh j { gh j with held := none, pub := true } k) f → k ≠ j ∧ Holds (gh k) f := by
      intro k f hk
      unfold put at hk
      split at hk
      · next e => obtain ⟨a, b, hab⟩ := hk; cases hab
      · next e => exact ⟨e, hk⟩
    have hget : ∀ a f, Dict.get? fs'.temp a = some f → a ≠ tmp ∧ Dict.get? fs.temp a = some f := by
      intro a f ha
      rw [h1, Dict.get?_del _ h.wfT] at ha
      split at ha
      · cases ha
      · next e => exact ⟨Ne.symm e, ha⟩
    refine ⟨by rw [h1]; exact Dict.WF_del _ h.wfT _, by rw [h2]; exact Dict.WF_set _ h.wfA _ _, ?_, ?_,
      fun m f hf => ?_, fun k => ?_, fun k k' f hk hk' => ?_, fun k f m hk k' hk' => ?_⟩
    · intro a f ha
      rw [h4]
      exact h.lt a f (hget a f ha).2
    · intro a b f ha hb
      exact h.inj a b f (hget a f ha).2 (hget b f hb).2
    · rw [h2, Dict.get?_set] at hf
      rw [h3, h4]
      split at hf
      · next e =>
        subst e
        cases hf
        rw [c2]
        exact ⟨ht _ _ hb, c3, fun k hk => (hH k i hk).1 (h.uniq k j i (hH k i hk).2 hme)⟩
      · obtain ⟨a1, a2, a3⟩ := h.assoc m f hf
        exact ⟨a1, a2, fun k hk => a3 k (hH k f hk).2⟩
    · unfold put
      split
      · refine ⟨fun a f b hx => (by cases hx), fun f n hx => ?_⟩
        rw [h3, h4]
        exact (h.fits j).opened f n hx
      · next hkj =>
        refine ⟨fun a f b' hx => ?_, fun f n hx => ?_⟩
        · obtain ⟨b1, b2, b3⟩ := (h.fits k).held _ _ _ hx
          have : a ≠ tmp := by
            rintro rfl
            rw [c1] at b1
            cases b1
            exact hkj (h.uniq k j _ ⟨_, _, hx⟩ hme)
          rw [h1, h3, h4, Dict.get?_del _ h.wfT, if_neg (Ne.symm this)]
          exact ⟨b1, b2, b3⟩
        · rw [h3, h4]
          exact (h.fits k).opened f n hx
    · exact h.uniq k k' f (hH k f hk).2 (hH k' f hk').2
    · refine h.closed k f m ?_ k' (hH k' f hk').2
      unfold put at hk
      split at hk
      · next e => subst e; exact hk
      · exact hk
  | dropped hh h1 h2 h3 h4 =>
    next tmp i b =>
    obtain ⟨c1, c2, c3⟩ := (h.fits j).held _ _ _ hh
    have hme : Holds (gh j) i := ⟨_, _, hh⟩
    have hH : ∀ k f, Holds (put gh j { gh j with held := none } k) f → k ≠ j ∧ Holds (gh k) f := by
      intro k f hk
      unfold put at hk
      split at hk
      · next e => obtain ⟨a, b, hab⟩ := hk; cases hab
      · next e => exact ⟨e, hk⟩
    have hget : ∀ a f, Dict.get? fs'.temp a = some f → Dict.get? fs.temp a = some f := by
      intro a f ha
      rcases h1 with h1 | ⟨h1, -⟩
      · rw [h1, Dict.get?_del _ h.wfT] at ha
        split at ha
        · cases ha
        · exact ha
      · rwa [h1] at ha
    refine ⟨?_, by rw [h2]; exact h.wfA, ?_, ?_,
      fun m f hf => ?_, fun k => ?_, fun k k' f hk hk' => ?_, fun k f m hk k' hk' => ?_⟩
    · rcases h1 with h1 | ⟨h1, -⟩ <;> rw [h1]
      · exact Dict.WF_del _ h.wfT _
      · exact h.wfT
    · intro a f ha
      rw [h4]
      exact h.lt a f (hget a f ha)
    · intro a b f ha hb
      exact h.inj a b f (hget a f ha) (hget b f hb)
    · rw [h2] at hf
      rw [h3, h4]
      obtain ⟨a1, a2, a3⟩ := h.assoc m f hf
      exact ⟨a1, a2, fun k hk => a3 k (hH k f hk).2⟩
    · unfold put
      split
      · refine ⟨fun a f b hx => (by cases hx), fun f n hx => ?_⟩
        rw [h3, h4]
        exact (h.fits j).opened f n hx
      · next hkj =>
        refine ⟨fun a f b' hx => ?_, fun f n hx => ?_⟩
        · obtain ⟨b1, b2, b3⟩ := (h.fits k).held _ _ _ hx
          have : a ≠ tmp := by
            rintro rfl
            rw [c1] at b1
            cases b1
            exact hkj (h.uniq k j _ ⟨_, _, hx⟩ hme)
          rw [h3, h4]
          refine ⟨?_, b2, b3⟩
          rcases h1 with h1 | ⟨h1, -⟩ <;> rw [h1]
          · rw [Dict.get?_del _ h.wfT, if_neg (Ne.symm this)]; exact b1
          · exact b1
        · rw [h3, h4]
          exact (h.fits k).opened f n hx
    · exact h.uniq k k' f (hH k f hk).2 (hH k' f hk').2
    · refine h.closed k f m ?_ k' (hH k' f hk').2
      unfold put at hk
      split at hk
      · next e => subst e; exact hk
      · exact hk
  | removed hu h1 h2 h3 h4 =>
    next n =>
    have : FInv St fs' gh := by
      refine ⟨?_, ?_, ?_, ?_, ?_, ?_, h.uniq, h.closed⟩
      · rw [h1]; exact h.wfT
      · rw [h2]; exact Dict.WF_del _ h.wfA _
      · rw [h1, h4]; exact h.lt
      · rw [h1]; exact h.inj
      · rw [h2, h3, h4]
        intro m f hf
        rw [Dict.get?_del _ h.wfA] at hf
        split at hf
        · cases hf
        · exact h.assoc m f hf
      · intro k
        refine ⟨?_, ?_⟩
        · rw [h1, h3, h4]; exact (h.fits k).held
        · rw [h3, h4]; exact (h.fits k).opened
    exact this.shrink j _ (fun _ h => h) (fun _ h => h)

/-! ## The whole system -/

/-- what a file under a name may contain: an association of one of the operations in `S`, complete -/
def StoredBy (W : World) (S : Op → Prop) (n : Str) (b : Bytes) : Prop :=
  ∃ u a s, S (.storeAssociation u a) ∧ assocName W.sha1 u a.handle = .ok n ∧ a.serialize = .ok s ∧ b = Utf8.encode s

theorem storedBy_target {W : World} {S : Op → Prop} {op : Op} (hop : S op) (b : Bytes) (n : Str)
    (h : target W op = some (b, n)) : StoredBy W S n b := by
  cases op with
  | storeAssociation u a =>
    unfold target at h
    simp only at h
    split at h
    · next s n' h1 h2 => cases h; exact ⟨u, a, s, hop, h2, h1, rfl⟩
    · cases h
  | _ => cases h

structure CInv (W : World) (E : Env) (S : Op → Prop) (cfg : Config Op Answer) (gh : Nat → Ghost) : Prop where
  files : FInv (StoredBy W S) cfg.fs gh
  procs : ∀ i p, cfg.procs i = some p → S p.op ∧
    WSafe (target W p.op) (fun _ => True) E.win (StoredBy W S) (fun r _ => ResultOk W (StoredBy W S) p.op r) (gh i) p.prog
  fin : ∀ x ∈ cfg.finished, ResultOk W (StoredBy W S) x.1 x.2

theorem put_same (gh : Nat → Ghost) (j : Nat) (g : Ghost) : put gh j g j = g := by simp [put]

theorem put_other (gh : Nat → Ghost) {j k : Nat} (g : Ghost) (h : k ≠ j) : put gh j g k = gh k := by simp [put, h]

theorem CInv.step {W : World} {E : Env} {S : Op → Prop} {cfg cfg' : Config Op Answer} {gh : Nat → Ghost}
    {allowed : Config Op Answer → Proc Op Answer → Prop} (h : CInv W E S cfg gh)
    (hs : Step E (program W) allowed cfg cfg') (hS : ∀ op ∈ cfg'.started, S op) : ∃ gh', CInv W E S cfg' gh' := by
  cases hs with
  | tick t ht => exact ⟨gh, h.files, h.procs, h.fin⟩
  | start i op hi =>
    refine ⟨put gh i Ghost.none, h.files.shrink i _ (by simp [Ghost.none]) (by simp [Ghost.none]), ?_, h.fin⟩
    intro k p hp
    by_cases hk : k = i
    · subst hk
      have : p = ⟨op, program W op⟩ := by simpa [Config.put] using hp.symm
      subst this
      rw [put_same]
      exact ⟨hS op List.mem_cons_self, safe_program W op⟩
    · rw [put_other _ _ hk]
      exact h.procs k p (by simpa [Config.put, hk] using hp)
  | sys i op c k r fs' hi ha hx =>
    obtain ⟨hop, hn, hk⟩ := h.procs i _ hi
    obtain ⟨g', h1, h2⟩ := exec_next hx hn (h.files.fits i)
    refine ⟨put gh i g', h.files.effect i h2 (fun b n => storedBy_target hop b n), ?_, h.fin⟩
    intro j p hp
    by_cases hj : j = i
    · subst hj
      have : p = ⟨op, k r⟩ := by simpa [Config.put] using hp.symm
      subst this
      rw [put_same]
      exact ⟨hop, hk r g' h1⟩
    · rw [put_other _ _ hj]
      exact h.procs j p (by simpa [Config.put, hj] using hp)
  | finish i op r hi =>
    refine ⟨gh, h.files, fun j p hp => ?_, ?_⟩
    · by_cases hj : j = i
      · subst hj
        simp [Config.put] at hp
      · exact h.procs j p (by simpa [Config.put, hj] using hp)
    · intro x hx
      rcases List.mem_cons.1 hx with rfl | hx
      · exact (h.procs i _ hi).2
      · exact h.fin x hx
  | crash i =>
    refine ⟨gh, h.files, fun j p hp => ?_, h.fin⟩
    by_cases hj : j = i
    · subst hj
      simp [Config.put] at hp
    · exact h.procs j p (by simpa [Config.put, hj] using hp)

theorem cinv_reachable {W : World} {E : Env} {S : Op → Prop} {cfg : Config Op Answer}
    {allowed : Config Op Answer → Proc Op Answer → Prop} (h : Reachable E (program W) allowed cfg)
    (hS : ∀ op ∈ cfg.started, S op) : ∃ gh, CInv W E S cfg gh := by
  induction h with
  | init =>
    refine ⟨fun _ => Ghost.none, ⟨?_, ?_, ?_, ?_, ?_, ?_, ?_, ?_⟩, ?_, ?_⟩
    · simp [Config.init, FS.empty, Dict.WF, Dict.keys]
    · simp [Config.init, FS.empty, Dict.WF, Dict.keys]
    · intro a b h; cases h
    · intro a b c h; cases h
    · intro a b h; cases h
    · intro j; exact ⟨fun _ _ _ h => (by cases h), fun _ _ h => by cases h⟩
    · rintro _ _ _ ⟨a, b, h⟩; cases h
    · intro _ _ _ h; cases h
    · intro i p h; cases h
    · intro x h; cases h
  | step _ hs ih =>
    obtain ⟨gh, hg⟩ := ih fun op hop => hS op (started_step hs op hop)
    exact hg.step hs hS

end FileStore
