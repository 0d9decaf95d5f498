import Verif.Lemmas.Association
import Verif.Lemmas.MessageAbs
import Verif.Spec.Server
/-! # Running server programs against a faithful store -/

namespace Server
open Py Message Association Store Spec

/-! ## The program monad -/

theorem bind_def {α β : Type} (p : Prog α) (f : α → Prog β) : (p >>= f) = Prog.bind p f := rfl
theorem pure_def {α : Type} (a : α) : (pure a : Prog α) = .done (.ok a) := rfl

@[simp] theorem bind_done_ok {α β : Type} (a : α) (f : α → Prog β) : (Prog.done (.ok a) >>= f) = f a := rfl
@[simp] theorem bind_done_error {α β : Type} (e : Err) (f : α → Prog β) :
    (Prog.done (.error e) >>= f) = .done (.error e) := rfl

variable {σ : Type} (step : σ → Event → σ × Outcome) (now : Nat)

@[simp] theorem run_done {α : Type} (s : σ) (r : Except Err α) : Prog.run step now s (.done r) = (s, r) := rfl
@[simp] theorem run_pure {α : Type} (s : σ) (a : α) : Prog.run step now s (pure a : Prog α) = (s, .ok a) := rfl
@[simp] theorem run_raise {α : Type} (s : σ) (e : Err) :
    Prog.run step now s (Prog.raise e : Prog α) = (s, .error e) := rfl

theorem run_bind {α β : Type} (s : σ) (p : Prog α) (f : α → Prog β) :
    Prog.run step now s (p >>= f) =
      match Prog.run step now s p with
      | (s', .ok a) => Prog.run step now s' (f a)
      | (s', .error e) => (s', .error e) := by
  rw [bind_def]
  induction p generalizing s with
  | done r => cases r <;> simp [Prog.bind, Prog.run]
  | call op k ih =>
    simp only [Prog.bind, Prog.run]
    cases h : step s (now, op) with
    | mk s' o => cases o with
      | ok a => simp only; exact ih a s'
      | error e => simp only

theorem run_bind_ok {α β : Type} {s s' : σ} {p : Prog α} {f : α → Prog β} {b : β}
    (h : Prog.run step now s (p >>= f) = (s', .ok b)) :
    ∃ s1 a, Prog.run step now s p = (s1, .ok a) ∧ Prog.run step now s1 (f a) = (s', .ok b) := by
  rw [run_bind] at h
  cases hp : Prog.run step now s p with
  | mk s1 r => cases r with
    | ok a => rw [hp] at h; exact ⟨s1, a, rfl, h⟩
    | error e => rw [hp] at h; simp at h

theorem run_bind_cases {α β : Type} {s s' : σ} {p : Prog α} {f : α → Prog β} {o : Except Err β}
    (h : Prog.run step now s (p >>= f) = (s', o)) :
    (∃ e, Prog.run step now s p = (s', .error e) ∧ o = .error e) ∨
    (∃ s1 a, Prog.run step now s p = (s1, .ok a) ∧ Prog.run step now s1 (f a) = (s', o)) := by
  rw [run_bind] at h
  cases hp : Prog.run step now s p with
  | mk s1 r => cases r with
    | ok a => rw [hp] at h; exact .inr ⟨s1, a, rfl, h⟩
    | error e => rw [hp] at h; simp at h; exact .inl ⟨e, by rw [h.1], h.2.symm⟩

/-! ## Store calls -/

/-- nothing new in `m'` -/
def Sub (m' m : AssocMap) : Prop := ∀ u h a, m' u h = some a → m u h = some a

theorem Sub.rfl' (m : AssocMap) : Sub m m := fun _ _ _ h => h
theorem Sub.trans {a b c : AssocMap} (h1 : Sub a b) (h2 : Sub b c) : Sub a c := fun _ _ _ h => h2 _ _ _ (h1 _ _ _ h)

theorem _root_.Store.Fades.sub {t : Int} {m m' : AssocMap} (h : Fades t m m') : Sub m' m := by
  intro u k a ha
  rcases h u k with h | ⟨h, -⟩
  · rw [← h]; exact ha
  · rw [h] at ha; simp at ha

variable {step now} {c : Clock} {view : σ → AssocMap} (hf : Faithful c step view)
include hf

theorem run_put {s s' : σ} {u : Str} {a : Assoc} {o : Except Err Unit}
    (h : Prog.run step now s (putAssoc u a) = (s', o)) :
    (o = .ok () ∧ view s' = fun u' h => if u' = u ∧ h = a.handle then some a else view s u' h) ∨
    (∃ e, o = .error e ∧ view s' = view s) := by
  simp only [putAssoc, Prog.run] at h
  cases hs : step s (now, .storeAssociation u a) with
  | mk s1 r =>
    have := hf.put s now u a
    rw [hs] at h this
    cases r with
    | ok r =>
      simp only [run_pure, Prod.mk.injEq] at h
      obtain ⟨rfl, rfl⟩ := h
      rcases this with ⟨_, -, hv⟩ | ⟨e, he, -⟩
      · exact .inl ⟨rfl, hv⟩
      · simp at he
    | error e =>
      simp only [Prod.mk.injEq] at h
      obtain ⟨rfl, rfl⟩ := h
      rcases this with ⟨_, he, -⟩ | ⟨e, -, hv⟩
      · simp at he
      · exact .inr ⟨_, rfl, hv⟩

theorem run_drop {s s' : σ} {u k : Str} {o : Except Err Unit}
    (h : Prog.run step now s (dropAssoc u k) = (s', o)) :
    (o = .ok () ∧ view s' = fun u' h => if u' = u ∧ h = k then none else view s u' h) ∨
    (∃ e, o = .error e ∧ view s' = view s) := by
  simp only [dropAssoc, Prog.run] at h
  cases hs : step s (now, .removeAssociation u k) with
  | mk s1 r =>
    have := hf.remove s now u k
    rw [hs] at h this
    cases r with
    | ok r =>
      simp only [run_pure, Prod.mk.injEq] at h
      obtain ⟨rfl, rfl⟩ := h
      rcases this with ⟨_, -, hv⟩ | ⟨e, he, -⟩
      · exact .inl ⟨rfl, hv⟩
      · simp at he
    | error e =>
      simp only [Prod.mk.injEq] at h
      obtain ⟨rfl, rfl⟩ := h
      rcases this with ⟨_, he, -⟩ | ⟨e, -, hv⟩
      · simp at he
      · exact .inr ⟨_, rfl, hv⟩

theorem drop_sub {s s' : σ} {u k : Str} {o : Except Err Unit}
    (h : Prog.run step now s (dropAssoc u k) = (s', o)) : Sub (view s') (view s) := by
  rcases run_drop hf h with ⟨-, hv⟩ | ⟨_, -, hv⟩
  · intro u' h' a ha
    rw [hv] at ha
    simp only at ha
    split at ha
    · simp at ha
    · exact ha
  · rw [hv]; exact Sub.rfl' _

theorem run_fetch {s s' : σ} {u k : Str} {o : Except Err (Option Assoc)}
    (h : Prog.run step now s (fetchAssoc u k) = (s', o)) :
    Fades (c.seconds now) (view s) (view s') ∧
    ((∃ r, o = .ok r ∧ (r = view s u k ∨ r = none ∧ ∃ a, view s u k = some a ∧ expired (c.seconds now) a)) ∨
     (∃ e, o = .error e)) := by
  simp only [fetchAssoc, Prog.run] at h
  obtain ⟨hfd, hr⟩ := hf.get s now u k
  cases hs : step s (now, .getAssociation u (some k)) with
  | mk s1 r =>
    rw [hs] at h hfd hr
    cases r with
    | ok r =>
      simp only at h hfd hr
      rcases hr with ⟨e, he⟩ | ⟨x, hx, hr⟩
      · simp at he
      · simp only [Except.ok.injEq] at hx
        subst hx
        simp only [run_pure, Prod.mk.injEq] at h
        obtain ⟨rfl, rfl⟩ := h
        exact ⟨hfd, .inl ⟨x, rfl, hr⟩⟩
    | error e =>
      simp only [Prod.mk.injEq] at h
      obtain ⟨rfl, rfl⟩ := h
      exact ⟨hfd, .inr ⟨_, rfl⟩⟩

/-! ## Signatory -/

omit hf in
theorem expires_iff (a : Assoc) (t : Int) : a.getExpiresIn t ≤ 0 ↔ expired t a := by
  simp only [Assoc.getExpiresIn, expired]; omega

variable {W : World} {E : Env} (hc : W.clock = c) (hn : E.now = now)
include hc hn

theorem run_getAssociation {s s' : σ} {k : Str} {dumb check : Bool} {o : Except Err (Option Assoc)}
    (h : Prog.run step now s (getAssociation W E k dumb check) = (s', o)) :
    Sub (view s') (view s) ∧ ∀ r, o = .ok r →
      (∀ a, r = some a → view s (storeKey dumb) k = some a ∧ (check = true → ¬ expired (c.seconds now) a)) ∧
      (r = none → ∀ a, view s (storeKey dumb) k = some a → expired (c.seconds now) a) ∧
      (∀ a, view s (storeKey dumb) k = some a → ¬ expired (c.seconds now) a → r = some a ∧
        Fades (c.seconds now) (view s) (view s')) := by
  have ht : E.seconds W = c.seconds now := by rw [Env.seconds, hc, hn]
  rw [getAssociation] at h
  rcases run_bind_cases _ _ h with ⟨e, h1, rfl⟩ | ⟨s1, r1, h1, h2⟩
  · exact ⟨(run_fetch hf h1).1.sub, by simp⟩
  · obtain ⟨hfd, hr⟩ := run_fetch hf h1
    have hr : r1 = view s (storeKey dumb) k ∨ r1 = none ∧ ∃ a, view s (storeKey dumb) k = some a ∧
        expired (c.seconds now) a := by
      rcases hr with ⟨r, he, hr⟩ | ⟨e, he⟩
      · simp at he; subst he; exact hr
      · simp at he
    cases r1 with
    | none =>
      simp only [keepOrDrop, run_pure, Prod.mk.injEq] at h2
      obtain ⟨rfl, rfl⟩ := h2
      refine ⟨hfd.sub, ?_⟩
      rintro r hr'
      simp at hr'; subst hr'
      refine ⟨by simp, ?_, ?_⟩
      · intro _ a ha
        rcases hr with hr | ⟨-, b, hb, hx⟩
        · rw [← hr] at ha; simp at ha
        · rw [hb] at ha; simp at ha; subst ha; exact hx
      · intro a ha hx
        rcases hr with hr | ⟨-, b, hb, hx'⟩
        · rw [← hr] at ha; simp at ha
        · rw [hb] at ha; simp at ha; subst ha; exact absurd hx' hx
    | some a =>
      have ha : view s (storeKey dumb) k = some a := by
        rcases hr with hr | ⟨hr, -⟩
        · exact hr.symm
        · simp at hr
      simp only [keepOrDrop, ht, expires_iff] at h2
      split at h2
      · next hx =>
        split at h2
        · rcases run_bind_cases _ _ h2 with ⟨e, h3, rfl⟩ | ⟨s2, _, h3, h4⟩
          · exact ⟨(drop_sub hf h3).trans hfd.sub, by simp⟩
          · simp only [run_pure, Prod.mk.injEq] at h4
            obtain ⟨rfl, rfl⟩ := h4
            refine ⟨(drop_sub hf h3).trans hfd.sub, ?_⟩
            rintro r hr'
            simp at hr'; subst hr'
            refine ⟨by simp, ?_, ?_⟩
            · intro _ b hb; rw [ha] at hb; simp at hb; subst hb; exact hx
            · intro b hb hx'; rw [ha] at hb; simp at hb; subst hb; exact absurd hx hx'
        · next hck =>
          simp only [run_pure, Prod.mk.injEq] at h2
          obtain ⟨rfl, rfl⟩ := h2
          refine ⟨hfd.sub, ?_⟩
          rintro r hr'
          simp at hr'; subst hr'
          refine ⟨?_, by simp, ?_⟩
          · intro b hb; simp at hb; subst hb; exact ⟨ha, fun h => absurd h hck⟩
          · intro b hb hx'; rw [ha] at hb; simp at hb; subst hb; exact absurd hx hx'
      · next hx =>
        simp only [run_pure, Prod.mk.injEq] at h2
        obtain ⟨rfl, rfl⟩ := h2
        refine ⟨hfd.sub, ?_⟩
        rintro r hr'
        simp at hr'; subst hr'
        refine ⟨?_, by simp, ?_⟩
        · intro b hb; simp at hb; subst hb; exact ⟨ha, fun _ => hx⟩
        · intro b hb _; rw [ha] at hb; simp at hb; subst hb; exact ⟨rfl, hfd⟩

theorem run_verify {s s' : σ} {k : Str} {m : Msg} {o : Except Err Bool}
    (h : Prog.run step now s (verify W E k m) = (s', o)) :
    Sub (view s') (view s) ∧ (o = .ok true → ∃ a, view s dumbKey k = some a ∧ ¬ expired (c.seconds now) a ∧
      a.checkMessageSignature W.mac m = .ok true) ∧
    (∀ a, view s dumbKey k = some a → ¬ expired (c.seconds now) a → a.checkMessageSignature W.mac m = .ok true →
      ∀ b, o = .ok b → b = true) := by
  rw [verify] at h
  rcases run_bind_cases _ _ h with ⟨e, h1, rfl⟩ | ⟨s1, r1, h1, h2⟩
  · exact ⟨(run_getAssociation hf hc hn h1).1, by simp, by simp⟩
  · obtain ⟨hs, hr⟩ := run_getAssociation hf hc hn h1
    obtain ⟨h3, h4, h5⟩ := hr r1 rfl
    cases r1 with
    | none =>
      simp only [checkWith, run_pure, Prod.mk.injEq] at h2
      obtain ⟨rfl, rfl⟩ := h2
      refine ⟨hs, by simp, ?_⟩
      intro a ha hx
      have := (h5 a ha hx).1
      simp at this
    | some a =>
      obtain ⟨ha, hx⟩ := h3 a rfl
      simp only [checkWith] at h2
      refine ⟨?_, ?_, ?_⟩
      · split at h2
        · simp only [run_pure, Prod.mk.injEq] at h2; rw [← h2.1]; exact hs
        · split at h2
          · simp only [run_pure, Prod.mk.injEq] at h2; rw [← h2.1]; exact hs
          · simp only [run_raise, Prod.mk.injEq] at h2; rw [← h2.1]; exact hs
      · rintro rfl
        refine ⟨a, ha, hx rfl, ?_⟩
        split at h2
        · next b hb => simp only [run_pure, Prod.mk.injEq, Except.ok.injEq] at h2; rw [hb, h2.2]
        · split at h2
          · simp at h2
          · simp at h2
      · intro a' ha' hx' hck b hb
        have : storeKey true = dumbKey := rfl
        rw [this, ha'] at ha; simp at ha; subst ha
        rw [hck] at h2
        simp only [run_pure, Prod.mk.injEq] at h2
        rw [hb] at h2; simp at h2; exact h2.2

omit hf hc hn in
theorem newAssociation_ok {ty : Str} {a : Assoc} (h : newAssociation W E ty = .ok a) :
    Makes W E a ∧ a.assocType = ty := by
  simp only [newAssociation, getSecretSize] at h
  split at h
  · next ht =>
    subst ht
    simp only [lift, ok_bind, Assoc.fromExpiresIn, Assoc.new] at h
    rw [if_pos (by decide)] at h
    simp at h; subst h
    exact ⟨⟨20, .inl ⟨rfl, rfl⟩, rfl, rfl, rfl, rfl⟩, rfl⟩
  · split at h
    · next ht =>
      subst ht
      simp only [lift, ok_bind, Assoc.fromExpiresIn, Assoc.new] at h
      rw [if_pos (by decide)] at h
      simp at h; subst h
      exact ⟨⟨32, .inr ⟨rfl, rfl⟩, rfl, rfl, rfl, rfl⟩, rfl⟩
    · simp [lift] at h

omit hc hn in
theorem run_create {s s' : σ} {dumb : Bool} {ty : Str} {o : Except Err Assoc}
    (h : Prog.run step now s (createAssociation W E dumb ty) = (s', o)) :
    (∃ a, o = .ok a ∧ newAssociation W E ty = .ok a ∧
      view s' = fun u k => if u = storeKey dumb ∧ k = a.handle then some a else view s u k) ∨
    (∃ e, o = .error e ∧ view s' = view s) := by
  rw [createAssociation] at h
  split at h
  · next e he =>
    simp only [run_raise, Prod.mk.injEq] at h
    exact .inr ⟨e, h.2.symm, by rw [h.1]⟩
  · next a ha =>
    rcases run_bind_cases _ _ h with ⟨e, h1, rfl⟩ | ⟨s1, r1, h1, h2⟩
    · rcases run_put hf h1 with ⟨he, -⟩ | ⟨e', he, hv⟩
      · simp at he
      · exact .inr ⟨_, rfl, hv⟩
    · simp only [run_pure, Prod.mk.injEq] at h2
      obtain ⟨rfl, rfl⟩ := h2
      rcases run_put hf h1 with ⟨-, hv⟩ | ⟨e', he, -⟩
      · exact .inl ⟨a, rfl, ha, hv⟩
      · simp at he

/-! ## Messages with nothing but OpenID arguments -/

end Server

namespace Server
open Py Message Association Store Spec

/-- the message holds exactly these OpenID arguments, in the namespace `oid` -/
structure Exactly (m : Msg) (oid : Str) (d : Str → Option Str) : Prop where
  inv : MInv m
  ns : m.getOpenIDNamespace = some oid
  here : ∀ k, m.args.get? (.uri oid, k) = d k
  only : ∀ n k, n ≠ .uri oid → m.args.get? (n, k) = none
  fresh : m.namespaces.nsToAlias = [(oid, .null)]
  imp : m.namespaces.isImplicit oid = OPENID1_NAMESPACES.contains oid

theorem Exactly.getArg {m : Msg} {oid : Str} {d : Str → Option Str} (h : Exactly m oid d) (k : Str) :
    m.getArg .openid k = .ok (d k) := by
  simp [Msg.getArg, Msg.fixNS, h.ns, h.here]

theorem Exactly.set {m m' : Msg} {oid : Str} {d : Str → Option Str} (h : Exactly m oid d) {k v : Str}
    (hs : m.setArg .openid k v = .ok m') : Exactly m' oid (fun k' => if k = k' then some v else d k') := by
  obtain ⟨oid', ho, hn, ha, hi, -⟩ := setArg_openid m h.inv k v m' hs
  rw [h.ns] at ho; simp at ho; subst ho
  refine ⟨hi, ?_, ?_, ?_, by rw [hn]; exact h.fresh, by rw [hn]; exact h.imp⟩
  · rw [← h.ns]; simp [Msg.getOpenIDNamespace, hn]
  · intro k'
    rw [ha, Dict.get?_set, h.here]
    simp
  · intro n k' hne
    rw [ha, Dict.get?_set, if_neg (by simp; intro e; exact absurd e.symm hne)]
    exact h.only n k' hne

theorem Exactly.can {m : Msg} {oid : Str} {d : Str → Option Str} (h : Exactly m oid d) (k v : Str) :
    ∃ m', m.setArg .openid k v = .ok m' ∧ Exactly m' oid (fun k' => if k = k' then some v else d k') := by
  obtain ⟨m', e, -⟩ := setArg_ok m h.inv .openid k v (.uri oid) (by simp [Msg.fixNS, h.ns])
  exact ⟨m', e, h.set e⟩

/-- assignments in order -/
def puts (kvs : Dict Str Str) (d : Str → Option Str) : Str → Option Str :=
  kvs.foldl (fun d p k => if p.1 = k then some p.2 else d k) d

theorem setArg_uri {m : Msg} {oid : Str} (hi : MInv m) (ho : m.getOpenIDNamespace = some oid) (k v : Str) :
    m.setArg (.uri oid) k v = m.setArg .openid k v := by
  have : oid ≠ t!"sreg" := by
    rintro rfl
    have := hi.oid _ ho
    revert this; decide
  simp [Msg.setArg, Msg.fixNS, ho, this]

theorem Exactly.update {m : Msg} {oid : Str} {d : Str → Option Str} (h : Exactly m oid d) (kvs : Dict Str Str) :
    ∃ m', m.updateArgs .openid kvs = .ok m' ∧ Exactly m' oid (puts kvs d) := by
  rw [Msg.updateArgs]
  simp only [Msg.fixNS, h.ns, ok_bind]
  induction kvs generalizing m d with
  | nil => exact ⟨m, rfl, h⟩
  | cons p r ih =>
    obtain ⟨m1, e1, h1⟩ := h.can p.1 p.2
    obtain ⟨m2, e2, h2⟩ := ih h1
    refine ⟨m2, ?_, h2⟩
    rw [List.foldlM_cons]
    simp only [NsKey.toNs, setArg_uri h.inv h.ns, e1, ok_bind]
    exact e2

theorem new_exactly {oid : Str} {m : Msg} {i : Option Bool} (h : Msg.new (some oid) i = .ok m)
    (hi' : i.getD (OPENID1_NAMESPACES.contains oid) = OPENID1_NAMESPACES.contains oid := by rfl) :
    Exactly m oid (fun _ => none) := by
  have hi := minv_new _ _ _ h
  simp only [Msg.new, Msg.setOpenIDNamespace] at h
  split at h
  · obtain ⟨nm, g1, g2⟩ := bind_eq_ok.1 h
    simp only [pure_eq_ok, Except.ok.injEq] at g2
    subst g2
    obtain ⟨-, -, -, -, rfl⟩ := NamespaceMap.addAlias_ok _ _ _ _ _ g1
    refine ⟨hi, ?_, by simp, by simp, rfl, ?_⟩
    · simp [Msg.getOpenIDNamespace, NamespaceMap.getNamespaceURI, Dict.set, Dict.get?]
    · rw [NamespaceMap.isImplicit]
      cases i with
      | none => cases h : OPENID1_NAMESPACES.contains oid <;> simp
      | some b => simp only [Option.getD_some] at hi'; rw [← hi']; cases b <;> simp
  · simp at h

/-- openids of responses: what `OpenIDResponse(request)` starts with -/
theorem Response.new_ok {r : Request} {resp : Response} (h : Response.new r = .ok resp) :
    resp.request = r ∧ (∀ oid, r.message.getOpenIDNamespace = some oid → Exactly resp.fields oid (fun _ => none)) ∧
    (r.message.getOpenIDNamespace = none → resp.fields = {}) := by
  rw [Response.new] at h
  obtain ⟨f, h1, h2⟩ := bind_eq_ok.1 h
  simp only [pure_eq_ok, Except.ok.injEq] at h2
  subst h2
  refine ⟨rfl, ?_, ?_⟩
  · intro oid ho
    rw [ho] at h1
    cases hn : Msg.new (some oid) with
    | error e => rw [hn] at h1; simp [lift] at h1
    | ok m => rw [hn] at h1; simp [lift] at h1; subst h1; exact new_exactly hn
  · intro ho
    rw [ho] at h1
    simp [Msg.new, lift] at h1; exact h1.symm

theorem lift_ok {α : Type} {x : Except PyErr α} {a : α} : lift x = .ok a ↔ x = .ok a := by
  cases x <;> simp [lift]

theorem lift_error {α : Type} {x : Except PyErr α} {e : Err} : lift x = .error e ↔ ∃ p, x = .error p ∧ e = .py p := by
  cases x <;> simp [lift, eq_comm]

theorem Response.set_ok {r r' : Response} {k v : Str} (h : r.set k v = .ok r') :
    r'.request = r.request ∧ r.fields.setArg .openid k v = .ok r'.fields := by
  rw [Response.set] at h
  obtain ⟨f, h1, h2⟩ := bind_eq_ok.1 h
  simp only [pure_eq_ok, Except.ok.injEq] at h2
  subst h2
  exact ⟨rfl, lift_ok.1 h1⟩

theorem Response.set_none {r r' : Response} {k v : Str} (h : r.set k v = .ok r')
    (hn : r.fields.getOpenIDNamespace = none) : False := by
  have := (Response.set_ok h).2
  simp [Msg.setArg, Msg.fixNS, hn] at this

theorem Response.update_ok {r r' : Response} {kvs : Dict Str Str} (h : r.update kvs = .ok r') :
    r'.request = r.request ∧ r.fields.updateArgs .openid kvs = .ok r'.fields := by
  rw [Response.update] at h
  obtain ⟨f, h1, h2⟩ := bind_eq_ok.1 h
  simp only [pure_eq_ok, Except.ok.injEq] at h2
  subst h2
  exact ⟨rfl, lift_ok.1 h1⟩

/-! ## What each call does to the private associations -/

section
variable {σ : Type} {step : σ → Event → σ × Outcome} {now : Nat} {c : Clock} {view : σ → AssocMap}
  (hf : Faithful c step view) {W : World} {E : Env} (hc : W.clock = c) (hn : E.now = now)
include hf hc hn

theorem run_report {s s' : σ} {resp : Response} {h : Option Str} {o : Except Err Response}
    (hr : Prog.run step now s (CheckAuthRequest.reportHandle W E resp h) = (s', o)) :
    Sub (view s') (view s) ∧ ∀ r, o = .ok r → r = resp ∨ ∃ k, h = some k ∧ resp.set t!"invalidate_handle" k = .ok r := by
  unfold CheckAuthRequest.reportHandle at hr
  split at hr
  · rcases run_bind_cases _ _ hr with ⟨e, h1, rfl⟩ | ⟨s1, a, h1, h2⟩
    · exact ⟨(run_getAssociation hf hc hn h1).1, by simp⟩
    · have hs := (run_getAssociation hf hc hn h1).1
      cases a with
      | none =>
        simp only [run_done, Prod.mk.injEq] at h2
        rw [← h2.1, ← h2.2]
        exact ⟨hs, fun r hr => .inr ⟨_, rfl, hr⟩⟩
      | some a =>
        simp only [run_pure, Prod.mk.injEq] at h2
        rw [← h2.1, ← h2.2]
        exact ⟨hs, fun r hr => .inl (by simpa using hr.symm)⟩
  · simp only [run_pure, Prod.mk.injEq] at hr
    rw [← hr.1, ← hr.2]
    exact ⟨Sub.rfl' _, fun r hr => .inl (by simpa using hr.symm)⟩

theorem run_checkAuth {s s' : σ} {r : CheckAuthRequest} {o : Except Err Response}
    (h : Prog.run step now s (r.answer W E) = (s', o)) :
    Sub (view s') (view s) ∧ ∀ resp, o = .ok resp →
      (view s' dumbKey r.assocHandle = none) ∧
      (resp.fields.getArg .openid t!"is_valid" = .ok (some t!"true") →
        ∃ a, view s dumbKey r.assocHandle = some a ∧ ¬ expired (c.seconds now) a ∧
          a.checkMessageSignature W.mac r.signed = .ok true) ∧
      (∀ a, view s dumbKey r.assocHandle = some a → ¬ expired (c.seconds now) a →
        a.checkMessageSignature W.mac r.signed = .ok true →
        resp.fields.getArg .openid t!"is_valid" = .ok (some t!"true")) := by
  rw [CheckAuthRequest.answer] at h
  rcases run_bind_cases _ _ h with ⟨e, h1, rfl⟩ | ⟨s1, valid, h1, h2⟩
  · exact ⟨(run_verify hf hc hn h1).1, by simp⟩
  obtain ⟨v1, v2, v3⟩ := run_verify hf hc hn h1
  rcases run_bind_cases _ _ h2 with ⟨e, h3, rfl⟩ | ⟨s2, u, h3, h4⟩
  · exact ⟨(drop_sub hf h3).trans v1, by simp⟩
  have d1 := drop_sub hf h3
  have gone : view s2 dumbKey r.assocHandle = none := by
    rcases run_drop hf h3 with ⟨-, hv⟩ | ⟨e, he, -⟩
    · rw [hv]; simp [storeKey]
    · simp at he
  rcases run_bind_cases _ _ h4 with ⟨e, h5, rfl⟩ | ⟨s3, resp1, h5, h6⟩
  · simp only [run_done, Prod.mk.injEq] at h5
    rw [← h5.1]; exact ⟨d1.trans v1, by simp⟩
  simp only [run_done, Prod.mk.injEq] at h5
  obtain ⟨rfl, h5⟩ := h5
  rcases run_bind_cases _ _ h6 with ⟨e, h7, rfl⟩ | ⟨s4, resp2, h7, h8⟩
  · simp only [run_done, Prod.mk.injEq] at h7
    rw [← h7.1]; exact ⟨d1.trans v1, by simp⟩
  simp only [run_done, Prod.mk.injEq] at h7
  obtain ⟨rfl, h7⟩ := h7
  obtain ⟨r1, r2⟩ := run_report hf hc hn h8
  refine ⟨(r1.trans d1).trans v1, ?_⟩
  intro resp hresp
  refine ⟨?_, ?_⟩
  · cases hg : view s' dumbKey r.assocHandle with
    | none => rfl
    | some a => have := r1 _ _ _ hg; rw [gone] at this; simp at this
  obtain ⟨n1, n2, n3⟩ := Response.new_ok h5
  obtain ⟨oid, ho⟩ : ∃ oid, r.message.getOpenIDNamespace = some oid := by
    cases ho : r.message.getOpenIDNamespace with
    | some o => exact ⟨o, rfl⟩
    | none =>
      have := n3 ho
      exact absurd (Response.set_none h7 (by rw [this]; rfl)) (by simp)
  have e1 := (n2 oid ho).set (Response.set_ok h7).2
  have key : resp.fields.getArg .openid t!"is_valid" = .ok (some (if valid then t!"true" else t!"false")) := by
    rcases r2 resp hresp with rfl | ⟨k, -, hk⟩
    · rw [e1.getArg]; simp
    · rw [(e1.set (Response.set_ok hk).2).getArg]; simp
  rw [key]
  constructor
  · intro hv
    cases valid with
    | false => exact absurd hv (by decide)
    | true => exact v2 rfl
  · intro a ha hx hck
    rw [v3 a ha hx hck valid rfl]; rfl

omit hc hn in
theorem create_view {s s' : σ} {dumb : Bool} {ty : Str} {o : Except Err Assoc}
    (h : Prog.run step now s (createAssociation W E dumb ty) = (s', o)) (u k : Str) (b : Assoc)
    (hb : view s' u k = some b) :
    view s u k = some b ∨ (u = storeKey dumb ∧ Makes W E b ∧ b.handle = k) := by
  rcases run_create hf h with ⟨a, -, ha, hv⟩ | ⟨e, -, hv⟩
  · rw [hv] at hb
    simp only at hb
    split at hb
    · next hk =>
      simp at hb; subst hb
      exact .inr ⟨hk.1, (newAssociation_ok ha).1, hk.2.symm⟩
    · exact .inl hb
  · rw [hv] at hb; exact .inl hb

omit hc hn in
theorem run_fallBack_view {s s' : σ} {r : Response} {h : Str} {old : Option Assoc} {o : Except Err Response}
    (hr : Prog.run step now s (fallBack W E r h old) = (s', o)) (u k : Str) (b : Assoc)
    (hb : view s' u k = some b) :
    view s u k = some b ∨ (u = dumbKey ∧ Makes W E b ∧ b.handle = k) := by
  rw [fallBack] at hr
  rcases run_bind_cases _ _ hr with ⟨e, h1, rfl⟩ | ⟨s1, r1, h1, h2⟩
  · simp only [run_done, Prod.mk.injEq] at h1
    rw [← h1.1] at hb; exact .inl hb
  simp only [run_done, Prod.mk.injEq] at h1
  obtain ⟨rfl, -⟩ := h1
  cases old with
  | none =>
    simp only at h2
    rcases run_bind_cases _ _ h2 with ⟨e, h3, rfl⟩ | ⟨s2, a, h3, h4⟩
    · exact create_view hf h3 u k b hb
    · simp only [run_done, Prod.mk.injEq] at h4
      rw [← h4.1] at hb
      exact create_view hf h3 u k b hb
  | some oa =>
    simp only at h2
    rcases run_bind_cases _ _ h2 with ⟨e, h3, rfl⟩ | ⟨s2, _, h3, h4⟩
    · exact .inl (drop_sub hf h3 _ _ _ hb)
    · have d := drop_sub hf h3
      rcases run_bind_cases _ _ h4 with ⟨e, h5, rfl⟩ | ⟨s3, a, h5, h6⟩
      · rcases create_view hf h5 u k b hb with h | h
        · exact .inl (d _ _ _ h)
        · exact .inr h
      · simp only [run_done, Prod.mk.injEq] at h6
        rw [← h6.1] at hb
        rcases create_view hf h5 u k b hb with h | h
        · exact .inl (d _ _ _ h)
        · exact .inr h

theorem run_sign_view {s s' : σ} {r : Response} {o : Except Err Response}
    (hr : Prog.run step now s (sign W E r) = (s', o)) (u k : Str) (b : Assoc)
    (hb : view s' u k = some b) :
    view s u k = some b ∨ (u = dumbKey ∧ Makes W E b ∧ b.handle = k) := by
  have plain : ∀ o, Prog.run step now s (do
      let a ← createAssociation W E true t!"HMAC-SHA1"
      Prog.done (signWith W r a)) = (s', o) →
      view s u k = some b ∨ (u = dumbKey ∧ Makes W E b ∧ b.handle = k) := by
    intro o h
    rcases run_bind_cases _ _ h with ⟨e, h1, rfl⟩ | ⟨s1, a, h1, h2⟩
    · exact create_view hf h1 u k b hb
    · simp only [run_done, Prod.mk.injEq] at h2
      rw [← h2.1] at hb
      exact create_view hf h1 u k b hb
  rw [sign] at hr
  split at hr
  · simp only [run_raise, Prod.mk.injEq] at hr
    rw [← hr.1] at hb; exact .inl hb
  · exact plain _ hr
  · exact plain _ hr
  · rcases run_bind_cases _ _ hr with ⟨e, h1, rfl⟩ | ⟨s1, a, h1, h2⟩
    · exact .inl ((run_getAssociation hf hc hn h1).1 _ _ _ hb)
    · have g := (run_getAssociation hf hc hn h1).1
      have : view s1 u k = some b ∨ (u = dumbKey ∧ Makes W E b ∧ b.handle = k) := by
        unfold signFound at h2
        split at h2
        · exact run_fallBack_view hf h2 u k b hb
        · split at h2
          · exact run_fallBack_view hf h2 u k b hb
          · simp only [run_done, Prod.mk.injEq] at h2
            rw [← h2.1] at hb; exact .inl hb
      rcases this with h | h
      · exact .inl (g _ _ _ h)
      · exact .inr h

omit hf hc hn in
theorem dumb_ne_normal : dumbKey ≠ normalKey := by decide

theorem call_private {s s' : σ} {x : Call} {o : Except Err Reply}
    (h : Prog.run step now s (x.prog W E) = (s', o)) (k : Str) (a : Assoc) (ha : view s' dumbKey k = some a) :
    (view s dumbKey k = some a ∧ (x.consumes k → ∃ e, o = .error e)) ∨
    (x.isPrivate ∧ Makes W E a ∧ a.handle = k) := by
  have wrap : ∀ {α : Type} {p : Prog α} {f : α → Reply},
      Prog.run step now s (do return f (← p)) = (s', o) →
      ∃ o', Prog.run step now s p = (s', o') ∧ (∀ r, o = .ok r → ∃ v, o' = .ok v) := by
    intro α p f h
    rcases run_bind_cases _ _ h with ⟨e, h1, rfl⟩ | ⟨s1, a, h1, h2⟩
    · exact ⟨_, h1, by simp⟩
    · simp only [run_pure, Prod.mk.injEq] at h2
      refine ⟨.ok a, ?_, fun _ _ => ⟨a, rfl⟩⟩
      rw [h1, h2.1]
  cases x with
  | associate n r =>
    obtain ⟨o', h1, -⟩ := wrap h
    refine .inl ⟨?_, by simp [Call.consumes]⟩
    rw [openidAssociate] at h1
    split at h1
    · rcases run_bind_cases _ _ h1 with ⟨e, h2, rfl⟩ | ⟨s1, b, h2, h3⟩
      · rcases create_view hf h2 _ _ _ ha with h | ⟨h, -⟩
        · exact h
        · exact absurd h dumb_ne_normal
      · simp only [run_done, Prod.mk.injEq] at h3
        rw [← h3.1] at ha
        rcases create_view hf h2 _ _ _ ha with h | ⟨h, -⟩
        · exact h
        · exact absurd h dumb_ne_normal
    · simp only [run_done, Prod.mk.injEq] at h1
      rw [← h1.1] at ha; exact ha
  | checkAuth r =>
    obtain ⟨o', h1, h2⟩ := wrap h
    obtain ⟨c1, c2⟩ := run_checkAuth hf hc hn h1
    refine .inl ⟨c1 _ _ _ ha, ?_⟩
    intro hk
    simp only [Call.consumes] at hk
    subst hk
    cases o with
    | error e => exact ⟨e, rfl⟩
    | ok v =>
      obtain ⟨resp, hresp⟩ := h2 v rfl
      have := (c2 resp hresp).1
      rw [this] at ha; simp at ha
  | sign r =>
    obtain ⟨o', h1, -⟩ := wrap h
    rcases run_sign_view hf hc hn h1 _ _ _ ha with h | ⟨-, h⟩
    · exact .inl ⟨h, by simp [Call.consumes]⟩
    · exact .inr ⟨trivial, h⟩
  | createAssociation dumb ty =>
    obtain ⟨o', h1, -⟩ := wrap (f := fun a => Reply.assoc (some a)) h
    rcases create_view hf h1 _ _ _ ha with h | ⟨h, h'⟩
    · exact .inl ⟨h, by simp [Call.consumes]⟩
    · refine .inr ⟨?_, h'⟩
      cases dumb with
      | true => rfl
      | false => exact absurd h dumb_ne_normal
  | verify k' m =>
    obtain ⟨o', h1, -⟩ := wrap h
    exact .inl ⟨(run_verify hf hc hn h1).1 _ _ _ ha, by simp [Call.consumes]⟩
  | getAssociation k' dumb check =>
    obtain ⟨o', h1, -⟩ := wrap h
    exact .inl ⟨(run_getAssociation hf hc hn h1).1 _ _ _ ha, by simp [Call.consumes]⟩
  | invalidate k' dumb =>
    rcases run_bind_cases _ _ h with ⟨e, h1, rfl⟩ | ⟨s1, _, h1, h2⟩
    · exact .inl ⟨drop_sub hf h1 _ _ _ ha, fun _ => ⟨e, rfl⟩⟩
    · simp only [run_pure, Prod.mk.injEq] at h2
      rw [← h2.1] at ha
      refine .inl ⟨drop_sub hf h1 _ _ _ ha, ?_⟩
      rintro ⟨rfl, rfl⟩
      rcases run_drop hf h1 with ⟨-, hv⟩ | ⟨e, he, -⟩
      · rw [hv] at ha; simp [storeKey] at ha
      · simp at he
  | cleanupAssociations =>
    simp only [Call.prog, Prog.run] at h
    have hv := hf.cleanAssocs s now
    refine .inl ⟨?_, by simp [Call.consumes]⟩
    cases hs : step s (now, .cleanupAssociations) with
    | mk s1 r =>
      rw [hs] at h hv
      have : s' = s1 := by
        cases r <;> simp only [run_pure, Prod.mk.injEq] at h <;> exact h.1.symm
      subst this
      exact hv.sub _ _ _ ha
  | cleanupNonces =>
    simp only [Call.prog, Prog.run] at h
    have hv := hf.cleanNonces s now
    refine .inl ⟨?_, by simp [Call.consumes]⟩
    cases hs : step s (now, .cleanupNonces) with
    | mk s1 r =>
      rw [hs] at h hv
      have : s' = s1 := by
        cases r <;> simp only [run_pure, Prod.mk.injEq] at h <;> exact h.1.symm
      subst this
      rw [← hv]; exact ha

end

/-! ## Histories -/

section
variable {σ : Type} {step : σ → Event → σ × Outcome} {view : σ → AssocMap} {W : World}
  (hf : Faithful W.clock step view)
include hf

/-- what is known of the private associations held -/
def Known (W : World) (seen : List Seen) (m : AssocMap) : Prop :=
  ∀ k a, m dumbKey k = some a → PrivateIn W seen a ∧ a.handle = k

theorem known_step {s : σ} {seen : List Seen} (hk : Known W seen (view s)) (E : Env) (x : Call) :
    Known W (seen ++ [⟨E, x, (Prog.run step E.now s (x.prog W E)).2⟩])
      (view (Prog.run step E.now s (x.prog W E)).1) := by
  intro k a ha
  rcases call_private hf rfl rfl (rfl : Prog.run step E.now s (x.prog W E) =
    ((Prog.run step E.now s (x.prog W E)).1, (Prog.run step E.now s (x.prog W E)).2)) k a ha with ⟨h, hc⟩ | ⟨h1, h2, h3⟩
  · obtain ⟨⟨b, y, af, rfl, h1, h2, h3⟩, h4⟩ := hk k a h
    refine ⟨⟨b, y, af ++ [⟨E, x, (Prog.run step E.now s (x.prog W E)).2⟩], by simp, h1, h2, ?_⟩, h4⟩
    intro z hz hzc
    rcases List.mem_append.1 hz with hz | hz
    · exact h3 z hz hzc
    · simp at hz; subst hz
      exact hc (by rw [← h4]; exact hzc)
  · exact ⟨⟨seen, ⟨E, x, (Prog.run step E.now s (x.prog W E)).2⟩, [], rfl, h1, h2, by simp⟩, h3⟩

theorem serve_known {hist : List (Env × Call)} {s : σ} {seen before after : List Seen} {x : Seen}
    (hk : Known W seen (view s)) (h : (serve W step s hist).1 = before ++ x :: after) :
    ∃ s', Known W (seen ++ before) (view s') ∧ x.reply = (Prog.run step x.env.now s' (x.call.prog W x.env)).2 := by
  induction hist generalizing s seen before with
  | nil => simp [serve] at h
  | cons p rest ih =>
    obtain ⟨E, y⟩ := p
    simp only [serve] at h
    cases before with
    | nil =>
      simp only [List.nil_append, List.cons.injEq] at h
      refine ⟨s, by simpa using hk, ?_⟩
      rw [← h.1]
    | cons z b =>
      simp only [List.cons_append, List.cons.injEq] at h
      obtain ⟨hz, h⟩ := h
      obtain ⟨s', g1, g2⟩ := ih (known_step hf hk E y) h
      refine ⟨s', ?_, g2⟩
      rw [← hz]
      simpa using g1

end

end Server
