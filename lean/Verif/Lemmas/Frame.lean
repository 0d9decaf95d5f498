import Verif.Lemmas.Server
import Verif.Spec.Login
/-! # What the calls of a provider leave alone in its store -/

namespace Server
open Py Message Association Cryptutil Store Spec

theorem _root_.Spec.Changes.rfl' (now : Int) (lost : Str → Str → Prop) (new : Str → Str → Assoc → Prop) (m : AssocMap) :
    Changes now lost new m m := ⟨fun _ _ _ h => .inl h, fun _ _ _ h => .inl h⟩

theorem _root_.Spec.Changes.trans {now : Int} {lost : Str → Str → Prop} {new : Str → Str → Assoc → Prop} {a b c : AssocMap}
    (h1 : Changes now lost new a b) (h2 : Changes now lost new b c) : Changes now lost new a c where
  keeps u h x hx := by
    rcases h1.keeps u h x hx with k | k
    · exact h2.keeps u h x k
    · exact .inr k
  adds u h x hx := by
    rcases h2.adds u h x hx with k | k
    · exact h1.adds u h x k
    · exact .inr k

theorem _root_.Spec.Changes.mono {now : Int} {lost lost' : Str → Str → Prop} {new new' : Str → Str → Assoc → Prop} {a b : AssocMap}
    (h : Changes now lost new a b) (h1 : ∀ u k, lost u k → lost' u k) (h2 : ∀ u k x, new u k x → new' u k x) :
    Changes now lost' new' a b where
  keeps u k x hx := (h.keeps u k x hx).imp_right fun h => h.imp_right (h1 u k)
  adds u k x hx := (h.adds u k x hx).imp_right (h2 u k x)

theorem _root_.Store.Fades.changes {now : Int} {m m' : AssocMap} (h : Fades now m m') (lost : Str → Str → Prop)
    (new : Str → Str → Assoc → Prop) : Changes now lost new m m' where
  keeps u k a ha := by
    rcases h u k with h | ⟨h, b, hb, hx⟩
    · exact .inl (by rw [h]; exact ha)
    · rw [ha] at hb; cases hb; exact .inr (.inl hx)
  adds u k a ha := .inl (h.sub u k a ha)

variable {σ : Type} {step : σ → Event → σ × Outcome} {now : Nat} {c : Clock} {view : σ → AssocMap} (hf : Faithful c step view)
  {lost : Str → Str → Prop} {new : Str → Str → Assoc → Prop}
include hf

theorem changes_drop {s s' : σ} {u k : Str} {o : Except Err Unit} (h : Prog.run step now s (dropAssoc u k) = (s', o)) {t : Int}
    (hx : lost u k ∨ ∀ a, view s u k = some a → expired t a) : Changes t lost new (view s) (view s') := by
  rcases run_drop hf h with ⟨-, hv⟩ | ⟨_, -, hv⟩
  · refine ⟨fun u' k' a ha => ?_, fun u' k' a ha => ?_⟩
    · rw [hv]
      simp only
      split
      · next hh =>
        obtain ⟨rfl, rfl⟩ := hh
        rcases hx with hx | hx
        · exact .inr (.inr hx)
        · exact .inr (.inl (hx a ha))
      · exact .inl ha
    · rw [hv] at ha
      simp only at ha
      split at ha
      · cases ha
      · exact .inl ha
  · rw [hv]; exact .rfl' _ _ _ _

theorem changes_put {s s' : σ} {u : Str} {a : Assoc} {o : Except Err Unit} (h : Prog.run step now s (putAssoc u a) = (s', o))
    {t : Int} (hl : lost u a.handle) (hn : new u a.handle a) : Changes t lost new (view s) (view s') := by
  rcases run_put hf h with ⟨-, hv⟩ | ⟨_, -, hv⟩
  · refine ⟨fun u' k' x hx => ?_, fun u' k' x hx => ?_⟩
    · rw [hv]
      simp only
      split
      · next hh =>
        obtain ⟨rfl, rfl⟩ := hh
        exact .inr (.inr hl)
      · exact .inl hx
    · rw [hv] at hx
      simp only at hx
      split at hx
      · next hh =>
        obtain ⟨rfl, rfl⟩ := hh
        cases hx; exact .inr hn
      · exact .inl hx
  · rw [hv]; exact .rfl' _ _ _ _

variable {W : World} {E : Env} (hc : W.clock = c) (hn : E.now = now)
include hc hn

theorem changes_get {s s' : σ} {k : Str} {dumb check : Bool} {o : Except Err (Option Assoc)}
    (h : Prog.run step now s (getAssociation W E k dumb check) = (s', o)) : Changes (E.seconds W) lost new (view s) (view s') := by
  have ht : E.seconds W = c.seconds now := by rw [Env.seconds, hc, hn]
  rw [getAssociation] at h
  rcases run_bind_cases _ _ h with ⟨e, h1, rfl⟩ | ⟨s1, r1, h1, h2⟩
  · rw [ht]; exact (run_fetch hf h1).1.changes _ _
  · obtain ⟨hfd, hr⟩ := run_fetch hf h1
    rw [← ht] at hfd hr
    refine (hfd.changes _ _).trans ?_
    cases r1 with
    | none =>
      simp only [keepOrDrop, run_pure, Prod.mk.injEq] at h2
      rw [h2.1]; exact .rfl' _ _ _ _
    | some a =>
      have ha : view s (storeKey dumb) k = some a := by
        rcases hr with ⟨r, he, hr⟩ | ⟨e, he⟩
        · simp at he; subst he
          rcases hr with hr | ⟨hr, -⟩
          · exact hr.symm
          · cases hr
        · cases he
      simp only [keepOrDrop, expires_iff] at h2
      split at h2
      · next hx =>
        split at h2
        · have hd : ∀ b, view s1 (storeKey dumb) k = some b → expired (E.seconds W) b := by
            intro b hb
            have := hfd.sub _ _ _ hb
            rw [ha] at this; cases this; exact hx
          rcases run_bind_cases _ _ h2 with ⟨e, h3, rfl⟩ | ⟨s2, _, h3, h4⟩
          · exact changes_drop hf h3 (.inr hd)
          · simp only [run_pure, Prod.mk.injEq] at h4
            rw [← h4.1]
            exact changes_drop hf h3 (.inr hd)
        · simp only [run_pure, Prod.mk.injEq] at h2
          rw [h2.1]; exact .rfl' _ _ _ _
      · simp only [run_pure, Prod.mk.injEq] at h2
        rw [h2.1]; exact .rfl' _ _ _ _

omit hc hn in
theorem changes_create {s s' : σ} {ty : Str} {o : Except Err Assoc} {t : Int}
    (h : Prog.run step now s (createAssociation W E true ty) = (s', o)) :
    Changes t (fun u k => ∃ a, MadeBy W E t!"http://localhost/|dumb" u k a) (MadeBy W E t!"http://localhost/|dumb") (view s) (view s') := by
  rw [createAssociation] at h
  split at h
  · simp only [run_raise, Prod.mk.injEq] at h
    rw [h.1]; exact .rfl' _ _ _ _
  · next a ha =>
    obtain ⟨hm, -⟩ := newAssociation_ok ha
    have hp : ∀ {s1 o1}, Prog.run step now s (putAssoc (storeKey true) a) = (s1, o1) →
        Changes t (fun u k => ∃ a, MadeBy W E t!"http://localhost/|dumb" u k a) (MadeBy W E t!"http://localhost/|dumb") (view s) (view s1) :=
      fun h1 => changes_put hf h1 ⟨a, rfl, hm, rfl⟩ ⟨rfl, hm, rfl⟩
    rcases run_bind_cases _ _ h with ⟨e, h1, rfl⟩ | ⟨s1, r1, h1, h2⟩
    · exact hp h1
    · simp only [run_pure, Prod.mk.injEq] at h2
      rw [← h2.1]; exact hp h1

omit hf hc hn in
theorem run_done_state {α : Type} {s s' : σ} {x : Except Err α} {o : Except Err α}
    (h : Prog.run step now s (Prog.done x) = (s', o)) : s = s' := by
  simp only [Prog.run, Prod.mk.injEq] at h; exact h.1

omit hc hn in
theorem changes_fallBack {s s' : σ} {r : Response} {k : Str} {old : Option Assoc} {o : Except Err Response} {t : Int}
    (hx : ∀ a, old = some a → ∀ b, view s t!"http://localhost/|normal" k = some b → expired t b)
    (h : Prog.run step now s (fallBack W E r k old) = (s', o)) :
    Changes t (fun u k => ∃ a, MadeBy W E t!"http://localhost/|dumb" u k a) (MadeBy W E t!"http://localhost/|dumb") (view s) (view s') := by
  rw [fallBack] at h
  have hcr : ∀ {s ty s' o r'}, Prog.run step now s (do
      let a ← createAssociation W E true ty
      Prog.done (signWith W r' a)) = (s', o) → Changes t (fun u k => ∃ a, MadeBy W E t!"http://localhost/|dumb" u k a) (MadeBy W E t!"http://localhost/|dumb") (view s) (view s') := by
    intro s ty s' o r' h
    rcases run_bind_cases _ _ h with ⟨e, h1, rfl⟩ | ⟨s1, a, h1, h2⟩
    · exact changes_create hf h1
    · rw [← run_done_state h2]; exact changes_create hf h1
  rcases run_bind_cases _ _ h with ⟨e, h1, rfl⟩ | ⟨s1, r', h1, h2⟩
  · rw [run_done_state h1]; exact .rfl' _ _ _ _
  · cases run_done_state h1
    cases old with
    | none => exact hcr h2
    | some a =>
      have hd : ∀ {s1 o1}, Prog.run step now s (invalidate k false) = (s1, o1) →
          Changes t (fun u k => ∃ a, MadeBy W E t!"http://localhost/|dumb" u k a) (MadeBy W E t!"http://localhost/|dumb") (view s) (view s1) :=
        fun h1 => changes_drop hf h1 (.inr (hx a rfl))
      rcases run_bind_cases _ _ h2 with ⟨e, h3, rfl⟩ | ⟨s2, _, h3, h4⟩
      · exact hd h3
      · exact (hd h3).trans (hcr h4)

theorem changes_sign {s s' : σ} {r : Response} {o : Except Err Response}
    (h : Prog.run step now s (sign W E r) = (s', o)) :
    Changes (E.seconds W) (fun u k => ∃ a, MadeBy W E t!"http://localhost/|dumb" u k a) (MadeBy W E t!"http://localhost/|dumb") (view s) (view s') := by
  have ht : E.seconds W = c.seconds now := by rw [Env.seconds, hc, hn]
  have hcr : ∀ {s s' o}, Prog.run step now s (do
      let a ← createAssociation W E true t!"HMAC-SHA1"
      Prog.done (signWith W r a)) = (s', o) → Changes (E.seconds W) (fun u k => ∃ a, MadeBy W E t!"http://localhost/|dumb" u k a) (MadeBy W E t!"http://localhost/|dumb") (view s) (view s') := by
    intro s s' o h
    rcases run_bind_cases _ _ h with ⟨e, h1, rfl⟩ | ⟨s1, a, h1, h2⟩
    · exact changes_create hf h1
    · rw [← run_done_state h2]; exact changes_create hf h1
  unfold sign at h
  split at h
  · simp only [run_raise, Prod.mk.injEq] at h
    rw [h.1]; exact .rfl' _ _ _ _
  · exact hcr h
  · exact hcr h
  · next k _ _ =>
    rcases run_bind_cases _ _ h with ⟨e, h1, rfl⟩ | ⟨s1, a, h1, h2⟩
    · exact changes_get hf hc hn h1
    · obtain ⟨hsub, hr⟩ := run_getAssociation hf hc hn h1
      refine (changes_get hf hc hn h1).trans ?_
      cases a with
      | none =>
        rw [signFound] at h2
        exact changes_fallBack hf (fun a h => by cases h) h2
      | some a =>
        rw [signFound] at h2
        split at h2
        · next hx =>
          rw [expires_iff] at hx
          refine changes_fallBack hf (fun _ _ b hb => ?_) h2
          have h3 := ((hr _ rfl).1 a rfl).1
          have h4 := hsub _ _ _ hb
          rw [show storeKey false = t!"http://localhost/|normal" from rfl] at h3
          rw [h3] at h4; cases h4; exact hx
        · rw [run_done_state h2]; exact .rfl' _ _ _ _

theorem changes_encode {s s' : σ} {r : Response} {o : Except Err WebResponse}
    (h : Prog.run step now s (signingEncode W E r) = (s', o)) :
    Changes (E.seconds W) (fun u k => ∃ a, MadeBy W E t!"http://localhost/|dumb" u k a) (MadeBy W E t!"http://localhost/|dumb") (view s) (view s') := by
  unfold signingEncode at h
  split at h
  · rw [run_done_state h]; exact .rfl' _ _ _ _
  · rw [run_done_state h]; exact .rfl' _ _ _ _
  · split at h
    · rw [run_done_state h]; exact .rfl' _ _ _ _
    · rw [run_done_state h]; exact .rfl' _ _ _ _
    · rcases run_bind_cases _ _ h with ⟨e, h1, rfl⟩ | ⟨s1, a, h1, h2⟩
      · exact changes_sign hf hc hn h1
      · rw [← run_done_state h2]; exact changes_sign hf hc hn h1

theorem changes_answer {s s' : σ} {r : CheckAuthRequest} {o : Except Err Response}
    (h : Prog.run step now s (r.answer W E) = (s', o)) :
    Changes (E.seconds W) (fun u k => u = t!"http://localhost/|dumb" ∧ k = r.assocHandle) (fun _ _ _ => False)
      (view s) (view s') := by
  have hver : ∀ {s1 o1}, Prog.run step now s (verify W E r.assocHandle r.signed) = (s1, o1) →
      Changes (E.seconds W) (fun u k => u = t!"http://localhost/|dumb" ∧ k = r.assocHandle) (fun _ _ _ => False)
        (view s) (view s1) := by
    intro s1 o1 h
    rw [verify] at h
    rcases run_bind_cases _ _ h with ⟨e, h1, rfl⟩ | ⟨s2, a, h1, h2⟩
    · exact changes_get hf hc hn h1
    · refine (changes_get hf hc hn h1).trans ?_
      unfold checkWith at h2
      split at h2
      · rw [run_done_state h2]; exact .rfl' _ _ _ _
      · split at h2
        · rw [run_done_state h2]; exact .rfl' _ _ _ _
        · split at h2 <;> (rw [run_done_state h2]; exact .rfl' _ _ _ _)
  rw [CheckAuthRequest.answer] at h
  rcases run_bind_cases _ _ h with ⟨e, h1, rfl⟩ | ⟨s1, valid, h1, h⟩
  · exact hver h1
  refine (hver h1).trans ?_
  have hd : ∀ {s2 o1}, Prog.run step now s1 (invalidate r.assocHandle true) = (s2, o1) →
      Changes (E.seconds W) (fun u k => u = t!"http://localhost/|dumb" ∧ k = r.assocHandle) (fun _ _ _ => False)
        (view s1) (view s2) := fun h1 => changes_drop hf h1 (.inl ⟨rfl, rfl⟩)
  rcases run_bind_cases _ _ h with ⟨e, h2, rfl⟩ | ⟨s2, _, h2, h⟩
  · exact hd h2
  refine (hd h2).trans ?_
  rcases run_bind_cases _ _ h with ⟨e, h3, rfl⟩ | ⟨s3, _, h3, h⟩
  · rw [run_done_state h3]; exact .rfl' _ _ _ _
  cases run_done_state h3
  rcases run_bind_cases _ _ h with ⟨e, h3, rfl⟩ | ⟨s3, _, h3, h⟩
  · rw [run_done_state h3]; exact .rfl' _ _ _ _
  cases run_done_state h3
  unfold CheckAuthRequest.reportHandle at h
  split at h
  · rcases run_bind_cases _ _ h with ⟨e, h1, rfl⟩ | ⟨s2, a, h1, h2⟩
    · exact changes_get hf hc hn h1
    · refine (changes_get hf hc hn h1).trans ?_
      cases a <;> (rw [run_done_state h2]; exact .rfl' _ _ _ _)
  · rw [run_done_state h]; exact .rfl' _ _ _ _

end Server
