import Verif.Lemmas.FileShared
import Verif.Lemmas.FileTrunc
import Verif.Spec.FileStore
/-! # Association files: one process at a time -/

namespace FileStore
open Py Files Store Association

theorem Sane.finv {fs : FS} (h : Sane fs) {St : Str → Bytes → Prop} (hs : ∀ n b, view fs n = some b → St n b) :
    FInv St fs fun _ => Ghost.none :=
  ⟨h.wfT, h.wfA, h.ltT, h.inj,
    fun n i hi => ⟨hs n _ (by rw [view, hi]; rfl), h.ltA n i hi, fun j ⟨a, b, hx⟩ => by cases hx⟩,
    fun j => ⟨fun a b c hx => (by cases hx), fun a b hx => by cases hx⟩,
    fun j j' i ⟨a, b, hx⟩ _ => (by cases hx), fun j i n hx => by cases hx⟩

theorem FInv.sane {fs : FS} {St : Str → Bytes → Prop} {gh : Nat → Ghost} (h : FInv St fs gh) : Sane fs :=
  ⟨h.wfT, h.wfA, h.lt, fun n i hi => (h.assoc n i hi).2.1, h.inj⟩

theorem exec_sane {E : Env} {t : Nat} {fs fs' : FS} {c : Call} {r : c.Reply} (hx : Exec E t fs c r fs')
    (hs : Sane fs) : Sane fs' := by
  cases hx with
  | unlink d n h =>
    cases d with
    | nonces => exact ⟨hs.wfT, hs.wfA, hs.ltT, hs.ltA, hs.inj⟩
    | assocs =>
      refine ⟨hs.wfT, Dict.WF_del _ hs.wfA _, hs.ltT, fun m i hi => ?_, hs.inj⟩
      have hi : Dict.get? (Dict.del fs.assocs n) m = some i := hi
      rw [Dict.get?_del _ hs.wfA] at hi
      split at hi
      · cases hi
      · exact hs.ltA m i hi
    | temp =>
      have key : ∀ m i, Dict.get? (Dict.del fs.temp n) m = some i → Dict.get? fs.temp m = some i := by
        intro m i hi
        rw [Dict.get?_del _ hs.wfT] at hi
        split at hi
        · cases hi
        · exact hi
      exact ⟨Dict.WF_del _ hs.wfT _, hs.wfA, fun m i hi => hs.ltT m i (key m i hi), hs.ltA,
        fun a b i ha hb => hs.inj a b i (key a i ha) (key b i hb)⟩
  | mkstemp n h =>
    have key : ∀ m i, Dict.get? (Dict.set fs.temp n fs.next) m = some i →
        (m = n ∧ i = fs.next) ∨ Dict.get? fs.temp m = some i := by
      intro m i hi
      rw [Dict.get?_set] at hi
      split at hi
      · next e => cases hi; exact .inl ⟨e.symm, rfl⟩
      · exact .inr hi
    refine ⟨Dict.WF_set _ hs.wfT _ _, hs.wfA, fun m i hi => ?_, fun m i hi => ?_, fun a b i ha hb => ?_⟩
    · rcases key m i hi with ⟨-, rfl⟩ | h
      · exact Nat.lt_succ_self _
      · exact Nat.lt_succ_of_lt (hs.ltT m i h)
    · exact Nat.lt_succ_of_lt (hs.ltA m i hi)
    · rcases key a i ha with ⟨rfl, h1⟩ | h1 <;> rcases key b i hb with ⟨rfl, h2⟩ | h2
      · rfl
      · have := hs.ltT b i h2; omega
      · have := hs.ltT a i h1; omega
      · exact hs.inj a b i h1 h2
  | rename tmp n i h hw =>
    have key : ∀ m i, Dict.get? (Dict.del fs.temp tmp) m = some i → Dict.get? fs.temp m = some i := by
      intro m i hi
      rw [Dict.get?_del _ hs.wfT] at hi
      split at hi
      · cases hi
      · exact hi
    refine ⟨Dict.WF_del _ hs.wfT _, Dict.WF_set _ hs.wfA _ _, fun m i hi => hs.ltT m i (key m i hi), fun m j hj => ?_,
        fun a b i ha hb => hs.inj a b i (key a i ha) (key b i hb)⟩
    have hj : Dict.get? (Dict.set fs.assocs n i) m = some j := hj
    rw [Dict.get?_set] at hj
    split at hj
    · cases hj; exact hs.ltT _ _ h
    · exact hs.ltA m j hj
  | _ => exact ⟨hs.wfT, hs.wfA, hs.ltT, hs.ltA, hs.inj⟩

theorem run_sane {E : Env} {t : Nat} {fs fs' : FS} {p : Prog α} {out : Except PyErr α}
    (h : Run E t fs p out fs') (hs : Sane fs) : Sane fs' := by
  induction h with
  | done => exact hs
  | sys hx _ ih => exact ih (exec_sane hx hs)

/-! ## A store, stopped anywhere -/

/-- only process 0 has a ghost state -/
def solo (g : Ghost) : Nat → Ghost := put (fun _ => Ghost.none) 0 g

theorem solo_put (g g' : Ghost) : put (solo g) 0 g' = solo g' := by
  funext k
  simp only [put, solo]
  split <;> rfl

theorem solo_zero (g : Ghost) : solo g 0 = g := by simp [solo, put]

/-- what has become of the files so far, on a system where renaming replaces -/
structure SInv (E : Env) (tgt : Option (Bytes × Str)) (fs0 fs : FS) (g : Ghost) : Prop where
  inv : FInv (fun _ _ => True) fs (solo g)
  before : E.win = false → g.pub = false → ∀ n, view fs n = view fs0 n
  after : E.win = false → g.pub = true → ∃ b n, tgt = some (b, n) ∧ ∀ m, view fs m = if m = n then some b else view fs0 m
  others : ∀ m, (∀ b, tgt ≠ some (b, m)) → view fs m = view fs0 m
  win : ∀ b n, tgt = some (b, n) → view fs n = view fs0 n ∨ view fs n = none ∨ view fs n = some b
  temp : (∀ n, ¬ E.faulty (.unlink .temp n)) → ∀ m, (∀ i b, g.held ≠ some (m, i, b)) →
    Dict.get? fs.temp m = Dict.get? fs0.temp m
  fresh : ∀ m i b, g.held = some (m, i, b) → Dict.get? fs0.temp m = none ∨ ∃ n, E.faulty (.unlink .temp n)

theorem view_same {fs fs' : FS} (h1 : fs'.assocs = fs.assocs) (h2 : ∀ n i, Dict.get? fs.assocs n = some i → fs'.data i = fs.data i)
    (n : Str) : view fs' n = view fs n := by
  unfold view
  rw [h1]
  cases h : Dict.get? fs.assocs n with
  | none => rfl
  | some i => rw [Option.map_some, Option.map_some, h2 n i h]

theorem SInv.same {E : Env} {tgt : Option (Bytes × Str)} {fs0 fs fs' : FS} {g g' : Ghost} (h : SInv E tgt fs0 fs g)
    (hi : FInv (fun _ _ => True) fs' (solo g')) (hv : ∀ n, view fs' n = view fs n) (hp : g'.pub = g.pub)
    (ht : (∀ n, ¬ E.faulty (.unlink .temp n)) → ∀ m, (∀ i b, g'.held ≠ some (m, i, b)) →
      Dict.get? fs'.temp m = Dict.get? fs0.temp m)
    (hf : ∀ m i b, g'.held = some (m, i, b) → Dict.get? fs0.temp m = none ∨ ∃ n, E.faulty (.unlink .temp n)) :
    SInv E tgt fs0 fs' g' :=
  ⟨hi, fun hw h' n => by rw [hv, h.before hw (hp ▸ h')],
    fun hw h' => by
      obtain ⟨b, n, h1, h2⟩ := h.after hw (hp ▸ h')
      exact ⟨b, n, h1, fun m => by rw [hv, h2]⟩,
    fun m hm => by rw [hv, h.others m hm], fun b n hbn => by rw [hv]; exact h.win b n hbn, ht, hf⟩

theorem SInv.effect {E : Env} {tgt : Option (Bytes × Str)} {fs0 fs fs' : FS} {g g' : Ghost} (h : SInv E tgt fs0 fs g)
    (he : Effect E tgt (fun n => E.win = true ∧ ∃ b, tgt = some (b, n)) fs g fs' g') : SInv E tgt fs0 fs' g' := by
  have hi : FInv (fun _ _ => True) fs' (solo g') := by
    have := h.inv.effect 0 (by rw [solo_zero]; exact he) (fun _ _ _ => trivial)
    rwa [solo_put] at this
  have hnot : ∀ tmp i b, g.held = some (tmp, i, b) → ∀ n, Dict.get? fs.assocs n ≠ some i := by
    intro tmp i b hh n hn
    exact (h.inv.assoc n i hn).2.2 0 (by rw [solo_zero]; exact ⟨_, _, hh⟩)
  have hheld : ∀ tmp i b, g.held = some (tmp, i, b) → Dict.get? fs.temp tmp = some i ∧ fs.data i = b ∧ i < fs.next := by
    intro tmp i b hh
    have := (h.inv.fits 0).held tmp i b
    rw [solo_zero] at this
    exact this hh
  cases he with
  | same h1 h2 h3 h4 =>
    exact h.same hi (view_same h2 fun n i _ => by rw [h3]) rfl (by rw [h1]; exact h.temp) h.fresh
  | opened hf => exact h.same hi (fun _ => rfl) rfl h.temp h.fresh
  | wrote hh h1 h2 h3 h4 =>
    next tmp i d d' =>
    refine h.same hi (view_same h2 fun n j hj => ?_) rfl ?_ ?_
    · rw [h3, if_neg]
      rintro rfl
      exact hnot _ _ _ hh n hj
    · rw [h1]
      intro hf m hm
      refine h.temp hf m fun i' b hx => ?_
      rw [hh] at hx
      cases hx
      exact hm _ _ rfl
    · intro m i' b hx
      cases hx
      exact h.fresh _ _ _ hh
  | made hh hf h1 h2 h3 h4 =>
    next tmp =>
    refine h.same hi (view_same h2 fun n j hj => ?_) rfl ?_ ?_
    · rw [h3, if_neg]
      have := (h.inv.assoc n j hj).2.1
      omega
    · rw [h1]
      intro hf m hm
      rw [Dict.get?_set, if_neg]
      · exact h.temp hf m fun i b hx => (by rw [hh] at hx; cases hx)
      · rintro rfl
        exact hm _ _ rfl
    · intro m i b hx
      cases hx
      by_cases hfa : ∃ n, E.faulty (.unlink .temp n)
      · exact .inr hfa
      · left
        rw [← h.temp (fun n hn => hfa ⟨n, hn⟩) tmp (fun i b hx => by rw [hh] at hx; cases hx)]
        exact (Dict.get?_none_iff _ _).2 hf
  | renamed hh hp hb h1 h2 h3 h4 =>
    next tmp n i b =>
    have hv : ∀ m, view fs' m = if m = n then some b else view fs m := by
      intro m
      unfold view
      rw [h2, h3, Dict.get?_set]
      by_cases hm : n = m
      · rw [if_pos hm, if_pos hm.symm, Option.map_some, (hheld _ _ _ hh).2.1]
      · rw [if_neg hm, if_neg (Ne.symm hm)]
    refine ⟨hi, fun _ h' => (by cases h'), fun hw _ => ⟨b, n, hb, fun m => ?_⟩, fun m hm => ?_, fun b' n' hbn => ?_, ?_,
      fun m i b hx => by cases hx⟩
    · rw [hv]
      split
      · rfl
      · exact h.before hw hp m
    · rw [hv, if_neg, h.others m hm]
      rintro rfl
      exact hm b hb
    · rw [hb] at hbn
      cases hbn
      rw [hv, if_pos rfl]
      exact .inr (.inr rfl)
    · intro hf m _
      rw [h1, Dict.get?_del _ h.inv.wfT]
      split
      · next e =>
        subst e
        rcases h.fresh _ _ _ hh with h | ⟨n, hn⟩
        · exact h.symm
        · exact absurd hn (hf n)
      · next e =>
        refine h.temp hf m fun i b hx => ?_
        rw [hh] at hx
        cases hx
        exact e rfl
  | dropped hh h1 h2 h3 h4 =>
    next tmp i b =>
    refine h.same hi (view_same h2 fun n j hj => by rw [h3]) rfl ?_ (fun m i b hx => by cases hx)
    intro hf m _
    rcases h1 with h1 | ⟨-, h1⟩
    · rw [h1, Dict.get?_del _ h.inv.wfT]
      split
      · next e =>
        subst e
        rcases h.fresh _ _ _ hh with h | ⟨n, hn⟩
        · exact h.symm
        · exact absurd hn (hf n)
      · next e =>
        refine h.temp hf m fun i b hx => ?_
        rw [hh] at hx
        cases hx
        exact e rfl
    · exact absurd h1 (hf _)
  | removed hu h1 h2 h3 h4 =>
    next n =>
    obtain ⟨hw, b, hb⟩ := hu
    have hv : ∀ m, view fs' m = if m = n then none else view fs m := by
      intro m
      unfold view
      rw [h2, h3, Dict.get?_del _ h.inv.wfA]
      by_cases hm : n = m
      · rw [if_pos hm, if_pos hm.symm]; rfl
      · rw [if_neg hm, if_neg (Ne.symm hm)]
    refine ⟨hi, fun hf => (by rw [hw] at hf; cases hf), fun hf => (by rw [hw] at hf; cases hf),
      fun m hm => ?_, fun b' n' hbn => ?_, by rw [h1]; exact h.temp, h.fresh⟩
    · rw [hv, if_neg, h.others m hm]
      rintro rfl
      exact hm b hb
    · rw [hb] at hbn
      cases hbn
      rw [hv, if_pos rfl]
      exact .inr (.inl rfl)

theorem sinv_init {E : Env} {tgt : Option (Bytes × Str)} {fs : FS} (h : Sane fs) : SInv E tgt fs fs Ghost.none := by
  have h0 : solo Ghost.none = fun _ => Ghost.none := by
    funext k
    simp [solo, put]
  refine ⟨?_, fun _ _ _ => rfl, fun _ hp => (by cases hp), fun _ _ => rfl, fun _ _ _ => .inl rfl, fun _ _ _ => rfl,
    fun _ _ _ hx => by cases hx⟩
  rw [h0]
  exact h.finv fun _ _ _ => trivial

theorem steps_safe {E : Env} {t : Nat} {tgt : Option (Bytes × Str)} {fs0 fs fs' : FS} {p p' : Prog α} {g : Ghost}
    {Q : Except PyErr α → Ghost → Prop} (h : Steps E t fs p fs' p')
    (hs : WSafe tgt (fun n => E.win = true ∧ ∃ b, tgt = some (b, n)) E.win (fun _ _ => True) Q g p)
    (hi : SInv E tgt fs0 fs g) :
    ∃ g', WSafe tgt (fun n => E.win = true ∧ ∃ b, tgt = some (b, n)) E.win (fun _ _ => True) Q g' p' ∧ SInv E tgt fs0 fs' g' := by
  induction h generalizing g with
  | refl => exact ⟨g, hs, hi⟩
  | sys hx _ ih =>
    obtain ⟨hn, hk⟩ := hs
    have hf := hi.inv.fits 0
    rw [solo_zero] at hf
    obtain ⟨g1, h1, h2⟩ := exec_next hx hn hf
    exact ih (hk _ g1 h1) (hi.effect h2)

theorem run_steps {E : Env} {t : Nat} {fs fs' : FS} {p : Prog α} {out : Except PyErr α}
    (h : Run E t fs p out fs') : Steps E t fs p fs' (.done out) := by
  induction h with
  | done => exact .refl _ _
  | sys hx _ ih => exact .sys hx ih

/-- a store, stopped anywhere -/
theorem store_steps {W : World} {E : Env} {t : Nat} {fs fs' : FS} {u : Str} {a : Assoc} {p' : Prog Unit} (hs : Sane fs)
    (h : Steps E t fs (storeAssociation W.sha1 W.early u a) fs' p') :
    ∃ g, SInv E (target W (.storeAssociation u a)) fs fs' g ∧
      ∀ r, p' = .done r → g.held = none ∧ (r = .ok () ↔ g.pub = true) := by
  have h0 := safe_store (win := E.win) (St := fun _ _ => True)
    (ua := fun n => E.win = true ∧ ∃ b, target W (.storeAssociation u a) = some (b, n)) W u a ?_
  · obtain ⟨g, h1, h2⟩ := steps_safe h h0 (sinv_init hs)
    refine ⟨g, h2, fun r hr => ?_⟩
    subst hr
    exact ⟨h1.1, h1.2.2⟩
  · exact fun hw b n hn => ⟨hw, b, hn⟩

end FileStore
