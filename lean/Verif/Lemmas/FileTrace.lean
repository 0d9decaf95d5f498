import Verif.Lemmas.FileSeq
import Verif.Props.FileNames
/-! # Association files along a history -/

namespace FileStore
open Py Files Store Association

theorem live_later {X : ExtraDigits} {s s' : Int} (h : s ≤ s') (fs : FS) (n : Str) :
    live X s' fs n = (live X s fs n).filter fun a => ¬ expired s' a := by
  unfold live
  split
  · rfl
  · split
    · rfl
    · next a _ =>
      by_cases h1 : expired s a
      · have h2 : expired s' a := by unfold expired at *; omega
        simp [h1, h2]
      · by_cases h2 : expired s' a <;> simp [h1, h2, Option.filter]

theorem alive_later {c : Clock} {t t' : Nat} (h : t ≤ t') (m : AssocMap) (u hd : Str) :
    alive c t' m u hd = (alive c t m u hd).filter fun a => ¬ expired (c.seconds t') a := by
  have hs : c.seconds t ≤ c.seconds t' := by
    unfold Clock.seconds
    exact_mod_cast Nat.div_le_div_right h
  unfold alive
  cases hm : m u hd with
  | none => rfl
  | some a =>
    by_cases h1 : expired (c.seconds t) a
    · have h2 : expired (c.seconds t') a := by unfold expired at *; omega
      simp [Option.filter, h1, h2]
    · by_cases h2 : expired (c.seconds t') a <;> simp [Option.filter, h1, h2]

theorem seconds_mono (c : Clock) {t t' : Nat} (h : t ≤ t') : c.seconds t ≤ c.seconds t' := by
  unfold Clock.seconds
  exact_mod_cast Nat.div_le_div_right h

structure TInv (W : World) (U T : Str → Prop) (tr : Trace) (now : Nat) (fs : FS) : Prop where
  sane : Sane fs
  same : ∀ u h n, U u → T h → h ≠ [] → assocName W.sha1 u h = .ok n →
    live W.digits (W.clock.seconds now) fs n = alive W.clock now (lastStored tr) u h
  src : ∀ n a, live W.digits (W.clock.seconds now) fs n = some a →
    ∃ u, U u ∧ T a.handle ∧ a.handle ≠ [] ∧ assocName W.sha1 u a.handle = .ok n
  dom : ∀ u h a, lastStored tr u h = some a → a.handle = h ∧ U u ∧ T h ∧ h ≠ [] ∧ ∃ n, assocName W.sha1 u h = .ok n

theorem TInv.later {W : World} {U T : Str → Prop} {tr : Trace} {now t : Nat} {fs : FS} (h : TInv W U T tr now fs)
    (ht : now ≤ t) : TInv W U T tr t fs := by
  refine ⟨h.sane, fun u hd n hu hh hne hn => ?_, fun n a ha => ?_, h.dom⟩
  · rw [live_later (seconds_mono W.clock ht), alive_later ht, h.same u hd n hu hh hne hn]
  · rw [live_later (seconds_mono W.clock ht)] at ha
    exact h.src n a (by
      cases hl : live W.digits (W.clock.seconds now) fs n with
      | none => rw [hl] at ha; cases ha
      | some b =>
        rw [hl] at ha
        simp only [Option.filter] at ha
        split at ha
        · exact ha
        · cases ha)

theorem lastStored_snoc (tr : Trace) (x : Event × Outcome) : lastStored (tr ++ [x]) = lastStep (lastStored tr) x := by
  simp [lastStored, List.foldl_append]

theorem TInv.unchanged {W : World} {U T : Str → Prop} {tr : Trace} {now : Nat} {fs fs' : FS} (h : TInv W U T tr now fs)
    (hs : Sane fs') (hl : ∀ n, live W.digits (W.clock.seconds now) fs' n = live W.digits (W.clock.seconds now) fs n)
    {x : Event × Outcome} (hx : lastStep (lastStored tr) x = lastStored tr) : TInv W U T (tr ++ [x]) now fs' := by
  refine ⟨hs, fun u hd n hu hh hne hn => ?_, fun n a ha => ?_, fun u hd a => ?_⟩
  · rw [lastStored_snoc, hx, hl]; exact h.same u hd n hu hh hne hn
  · exact h.src n a (by rw [← hl]; exact ha)
  · rw [lastStored_snoc, hx]; exact h.dom u hd a

theorem TInv.step {W : World} {E : Env} (hw : E.win = false) {U T : Str → Prop} (hcu : NoCollision W.sha1 U) (hc : NoCollision W.sha1 T) {tr : Trace}
    {t : Nat} {fs fs' : FS} (h : TInv W U T tr t fs) {op : Op} {out : Outcome} (hop : GoodOp U T op)
    (hr : Run E t fs (program W op) out fs') : TInv W U T (tr ++ [((t, op), out)]) t fs' := by
  have hs' := run_sane hr h.sane
  have inj : ∀ u hd u' hd' n, U u → T hd → U u' → T hd' → assocName W.sha1 u hd = .ok n →
      assocName W.sha1 u' hd' = .ok n → u = u' ∧ hd = hd' := fun u hd u' hd' n h1 h2 h3 h4 e1 e2 =>
    Props.c22_injective W.sha1 hc.1 u hd u' hd' n e1 e2 (hcu.2 u u' h1 h3) (hc.2 hd hd' h2 h4)
  have herr : ∀ e, out = .error e → lastStep (lastStored tr) ((t, op), out) = lastStored tr := by
    rintro e rfl
    cases op <;> rfl
  cases op with
  | storeAssociation u a =>
    obtain ⟨g1, g2, g3, g4⟩ := hop
    rcases run_bind hr with ⟨⟨⟩, fs1, h1, h2⟩ | ⟨e, h1, rfl⟩
    · obtain ⟨rfl, rfl⟩ := run_done h2
      obtain ⟨g, hi, hd⟩ := store_steps h.sane (run_steps h1)
      obtain ⟨b, n, htg, hv⟩ := hi.after hw ((hd _ rfl).2.1 rfl)
      unfold target at htg
      simp only at htg
      split at htg
      · next s n' hser hnm =>
        cases htg
        have hl : ∀ m, live W.digits (W.clock.seconds t) fs' m =
            if m = n then (if expired (W.clock.seconds t) a then none else some a)
            else live W.digits (W.clock.seconds t) fs m := by
          intro m
          split
          · next e =>
            unfold live
            rw [hv, if_pos e]
            simp [parseFile_full hser g4]
          · next e => exact live_congr (by rw [hv, if_neg e])
        refine ⟨hs', fun u' hd' m hu hh hne hm => ?_, fun m a' ha => ?_, fun u' hd' a' => ?_⟩
        · rw [lastStored_snoc, hl]
          by_cases he : u' = u ∧ hd' = a.handle
          · obtain ⟨rfl, rfl⟩ := he
            rw [hnm] at hm
            cases hm
            rw [if_pos rfl]
            simp only [alive, lastStep, and_self, if_true, Option.filter]
            by_cases hex : expired (W.clock.seconds t) a <;> simp [hex]
          · rw [if_neg]
            · rw [h.same u' hd' m hu hh hne hm]
              simp only [alive, lastStep, if_neg he]
            · rintro rfl
              obtain ⟨rfl, rfl⟩ := inj u' hd' u a.handle m hu hh g1 g2 hm hnm
              exact he ⟨rfl, rfl⟩
        · rw [hl] at ha
          split at ha
          · next e =>
            subst e
            split at ha
            · cases ha
            · cases ha
              exact ⟨u, g1, g2, g3, hnm⟩
          · exact h.src m a' ha
        · rw [lastStored_snoc]
          simp only [lastStep]
          split
          · next he =>
            rintro ⟨⟩
            obtain ⟨rfl, rfl⟩ := he
            exact ⟨rfl, g1, g2, g3, n, hnm⟩
          · exact h.dom u' hd' a'
      · cases htg
    · obtain ⟨g, hi, hd⟩ := store_steps h.sane (run_steps h1)
      have hp : g.pub = false := by
        cases hg : g.pub with
        | false => rfl
        | true => exact absurd ((hd _ rfl).2.2 hg) (by simp)
      exact h.unchanged hs' (fun n => live_congr (hi.before hw hp n)) (herr e rfl)
  | getAssociation u hd =>
    have key : Shrunk W.digits (W.clock.seconds t) fs fs' := by
      rcases run_bind hr with ⟨a, fs1, h1, h2⟩ | ⟨e, h1, rfl⟩
      · obtain ⟨-, rfl⟩ := run_done h2
        exact (run_get h.sane h1).1
      · exact (run_get h.sane h1).1
    exact h.unchanged hs' key.live (by cases out <;> rfl)
  | removeAssociation u hd =>
    obtain ⟨g1, g2⟩ := hop
    rcases run_bind hr with ⟨b, fs1, h1, h2⟩ | ⟨e, h1, rfl⟩
    · obtain ⟨rfl, rfl⟩ := run_done h2
      obtain ⟨r1, -, r3, r4⟩ := run_removeAssoc h.sane h1
      by_cases hne0 : hd = []
      · subst hne0
        have hlv : ∀ m, live W.digits (W.clock.seconds t) fs' m = live W.digits (W.clock.seconds t) fs m := by
          intro m
          rcases r4 m with h1 | ⟨h1, h2⟩
          · exact h1
          · rw [live_none h2]
            cases hl : live W.digits (W.clock.seconds t) fs m with
            | none => rfl
            | some a =>
              obtain ⟨u', e1, e2, e3, e4⟩ := h.src m a hl
              exact absurd (inj u [] u' a.handle m g1 g2 e1 e2 h1 e4).2.symm e3
        refine h.unchanged hs' hlv ?_
        funext u' hd'
        simp only [lastStep]
        split
        · next he =>
          cases hls : lastStored tr u' hd' with
          | none => rfl
          | some a => exact absurd he.2 (h.dom u' hd' a hls).2.2.2.1
        · rfl
      · obtain ⟨n, hn, hv, -⟩ := r3 b rfl hne0
        have hl : ∀ m, live W.digits (W.clock.seconds t) fs' m =
            if m = n then none else live W.digits (W.clock.seconds t) fs m := by
          intro m
          split
          · next e => subst e; exact live_none hv
          · next e => exact r1 n hn m e
        refine ⟨hs', fun u' hd' m hu hh hne hm => ?_, fun m a' ha => ?_, fun u' hd' a' => ?_⟩
        · rw [lastStored_snoc, hl]
          by_cases he : u' = u ∧ hd' = hd
          · obtain ⟨rfl, rfl⟩ := he
            rw [hn] at hm
            cases hm
            rw [if_pos rfl]
            simp [alive, lastStep]
          · rw [if_neg]
            · rw [h.same u' hd' m hu hh hne hm]
              simp only [alive, lastStep, if_neg he]
            · rintro rfl
              obtain ⟨rfl, rfl⟩ := inj u' hd' u hd m hu hh g1 g2 hm hn
              exact he ⟨rfl, rfl⟩
        · rw [hl] at ha
          split at ha
          · cases ha
          · exact h.src m a' ha
        · rw [lastStored_snoc]
          simp only [lastStep]
          split
          · intro h; cases h
          · exact h.dom u' hd' a'
    · obtain ⟨-, r2, -, -⟩ := run_removeAssoc h.sane h1
      exact h.unchanged hs' (r2 e rfl).live (herr e rfl)
  | useNonce u ts s =>
    have key : ∀ n, view fs' n = view fs n := by
      rcases run_bind hr with ⟨a, fs1, h1, h2⟩ | ⟨e, h1, rfl⟩
      · obtain ⟨-, rfl⟩ := run_done h2
        exact run_useNonce h1
      · exact run_useNonce h1
    exact h.unchanged hs' (fun n => live_congr (key n)) (by cases out <;> rfl)
  | cleanupNonces =>
    have key : ∀ n, view fs' n = view fs n := by
      rcases run_bind hr with ⟨a, fs1, h1, h2⟩ | ⟨e, h1, rfl⟩
      · obtain ⟨-, rfl⟩ := run_done h2
        exact run_cleanupNonces h1
      · exact run_cleanupNonces h1
    exact h.unchanged hs' (fun n => live_congr (key n)) (by cases out <;> rfl)
  | cleanupAssociations =>
    have key : Shrunk W.digits (W.clock.seconds t) fs fs' := by
      rcases run_bind hr with ⟨a, fs1, h1, h2⟩ | ⟨e, h1, rfl⟩
      · obtain ⟨-, rfl⟩ := run_done h2
        exact run_cleanup h.sane h1
      · exact run_cleanup h.sane h1
    exact h.unchanged hs' key.live (by cases out <;> rfl)

theorem tinv_ran {W : World} {E : Env} (hw : E.win = false) {U T : Str → Prop} (hcu : NoCollision W.sha1 U) (hc : NoCollision W.sha1 T) {tr : Trace}
    {fs : FS} (h : Ran W E FS.empty tr fs) (hop : ∀ x ∈ tr, GoodOp U T x.1.2) (hm : tr.Monotone) {t : Nat}
    (ht : ∀ x ∈ tr, x.1.1 ≤ t) : TInv W U T tr t fs := by
  generalize h0 : FS.empty = fs0 at h
  induction h generalizing t with
  | nil =>
    subst h0
    refine ⟨⟨?_, ?_, ?_, ?_, ?_⟩, fun u h n _ _ _ _ => rfl, fun n a h => ?_, fun u h a h => ?_⟩
    · simp [FS.empty, Dict.WF, Dict.keys]
    · simp [FS.empty, Dict.WF, Dict.keys]
    · intro a b h; cases h
    · intro a b h; cases h
    · intro a b c h; cases h
    · cases h
    · cases h
  | snoc h1 h2 ih =>
    rename_i tr now op out
    have hm' := hm
    unfold Trace.Monotone at hm
    rw [List.pairwise_append] at hm
    have hle : ∀ x ∈ tr, x.1.1 ≤ now := fun x hx => hm.2.2 x hx ((now, op), out) (by simp)
    have h3 := ih (fun x hx => hop x (by simp [hx])) hm.1 hle
    have h4 := h3.step hw hcu hc (hop ((now, op), out) (by simp)) h2
    exact h4.later (ht ((now, op), out) (by simp))

end FileStore
