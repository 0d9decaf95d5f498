import Verif.Lemmas.Server
/-! # Server programs under any schedule -/

namespace Server
open Py Message Association Store Spec

/-- whatever the store answers within `ans`, every operation is within `ops` and every result within `post` -/
def All {α : Type} (ans : Op → Answer → Prop) (ops : Op → Prop) (post : Except Err α → Prop) : Prog α → Prop
  | .done r => post r
  | .call op k => ops op ∧ (∀ e, post (.error (.py e))) ∧ ∀ a, ans op a → All ans ops post (k a)

section
variable {ans : Op → Answer → Prop} {ops : Op → Prop}

theorem All.bind {α β : Type} {mid : Except Err α → Prop} {post : Except Err β → Prop} {p : Prog α} {f : α → Prog β}
    (h : All ans ops mid p) (he : ∀ e, mid (.error e) → post (.error e))
    (hf : ∀ a, mid (.ok a) → All ans ops post (f a)) : All ans ops post (p >>= f) := by
  rw [bind_def]
  induction p with
  | done r =>
    cases r with
    | ok a => exact hf a h
    | error e => exact he e h
  | call op k ih =>
    obtain ⟨h1, h2, h3⟩ := h
    exact ⟨h1, fun e => he _ (h2 e), fun a ha => ih a (h3 a ha)⟩

theorem All.mono {α : Type} {post post' : Except Err α → Prop} {p : Prog α} (h : All ans ops post p)
    (hp : ∀ r, post r → post' r) : All ans ops post' p := by
  induction p with
  | done r => exact hp r h
  | call op k ih =>
    obtain ⟨h1, h2, h3⟩ := h
    exact ⟨h1, fun e => hp _ (h2 e), fun a ha => ih a (h3 a ha)⟩

theorem All.follow {α : Type} {post : Except Err α → Prop} {p q : Prog α} {l : List (Op × Outcome)}
    (h : All ans ops post p) (hl : ∀ x ∈ l, ∀ a, x.2 = .ok a → ans x.1 a) (hf : Spec.follow p l = some q) :
    (∀ x ∈ l, ops x.1) ∧ All ans ops post q := by
  induction l generalizing p with
  | nil => simp [Spec.follow] at hf; subst hf; exact ⟨by simp, h⟩
  | cons x rest ih =>
    obtain ⟨op', o⟩ := x
    cases p with
    | done r => simp [Spec.follow] at hf
    | call op k =>
      simp only [Spec.follow] at hf
      obtain ⟨h1, h2, h3⟩ := h
      split at hf
      · next he =>
        subst he
        cases o with
        | ok a =>
          obtain ⟨g1, g2⟩ := ih (h3 a (hl (op, .ok a) (by simp) a rfl)) (fun x hx => hl x (by simp [hx])) hf
          exact ⟨fun x hx => (List.mem_cons.1 hx).elim (fun e => by rw [e]; exact h1) (g1 x), g2⟩
        | error e =>
          obtain ⟨g1, g2⟩ := ih (p := .done (.error (.py e))) (h2 e) (fun x hx => hl x (by simp [hx])) hf
          exact ⟨fun x hx => (List.mem_cons.1 hx).elim (fun e => by rw [e]; exact h1) (g1 x), g2⟩
      · simp at hf

/-! ## The programs of the server -/

/-- an answer from the private associations is one of these -/
def FromPrivate (S : Str → Assoc → Prop) (op : Op) (x : Answer) : Prop :=
  ∀ h a, op = .getAssociation dumbKey (some h) → x = .assoc (some a) → S h a

/-- an operation that stores stores under one of the two names, and under the private one only what a private call makes -/
def StoresOnly (W : World) (E : Env) (priv : Prop) (op : Op) : Prop :=
  ∀ u a, op = .storeAssociation u a →
    (u = normalKey ∨ u = dumbKey ∧ priv) ∧ Makes W E a

variable {W : World} {E : Env} {S : Str → Assoc → Prop} {priv : Prop}

theorem all_pure {α : Type} {post : Except Err α → Prop} {a : α} (h : post (.ok a)) :
    All ans ops post (pure a : Prog α) := h

theorem all_put {u : Str} {a : Assoc} (hk : u = normalKey ∨ u = dumbKey ∧ priv) (hm : Makes W E a) :
    All (FromPrivate S) (StoresOnly W E priv) (fun _ => True) (putAssoc u a) := by
  refine ⟨?_, fun _ => trivial, fun _ _ => trivial⟩
  intro u' a' h
  simp only [Op.storeAssociation.injEq] at h
  obtain ⟨rfl, rfl⟩ := h
  exact ⟨hk, hm⟩

theorem all_drop {u h : Str} : All (FromPrivate S) (StoresOnly W E priv) (fun _ => True) (dropAssoc u h) :=
  ⟨by intro u a h; simp at h, fun _ => trivial, fun _ _ => trivial⟩

theorem all_fetch {u h : Str} : All (FromPrivate S) (StoresOnly W E priv)
    (fun r => ∀ a, u = dumbKey → r = .ok (some a) → S h a) (fetchAssoc u h) := by
  refine ⟨by intro u a h; simp at h, by simp, ?_⟩
  intro x hx
  cases x with
  | assoc r =>
    intro a hu hr
    simp at hr
    subst hr
    exact hx h a (by rw [hu]) rfl
  | _ => intro a hu hr; simp at hr

theorem all_create {dumb : Bool} {ty : Str} (hp : dumb = true → priv) :
    All (FromPrivate S) (StoresOnly W E priv) (fun _ => True) (createAssociation W E dumb ty) := by
  rw [createAssociation]
  split
  · trivial
  · next a ha =>
    refine (all_put ?_ (newAssociation_ok ha).1).bind (fun _ _ => trivial) (fun _ _ => trivial)
    cases dumb with
    | true => exact .inr ⟨rfl, hp rfl⟩
    | false => exact .inl rfl

theorem all_get {k : Str} {dumb check : Bool} : All (FromPrivate S) (StoresOnly W E priv)
    (fun r => ∀ a, dumb = true → check = true → r = .ok (some a) → S k a ∧ ¬ expired (W.clock.seconds E.now) a)
    (getAssociation W E k dumb check) := by
  rw [getAssociation]
  refine all_fetch.bind (by simp) ?_
  intro r hr
  cases r with
  | none => intro a _ _ h; simp at h
  | some a =>
    simp only [keepOrDrop]
    have hs : ∀ b, dumb = true → a = b → S k b := by
      rintro b rfl rfl; exact hr a rfl rfl
    split
    · next hx =>
      split
      · refine all_drop.bind (by simp) ?_
        intro _ _ b _ _ h; simp at h
      · next hc =>
        intro b _ hc' _
        exact absurd hc' hc
    · next hx =>
      intro b hd _ h
      simp at h
      refine ⟨hs b hd h, ?_⟩
      subst h
      rw [expires_iff] at hx
      exact hx

theorem all_verify {k : Str} {m : Msg} : All (FromPrivate S) (StoresOnly W E priv)
    (fun r => r = .ok true → ∃ a, S k a ∧ ¬ expired (W.clock.seconds E.now) a ∧
      a.checkMessageSignature W.mac m = .ok true) (verify W E k m) := by
  rw [verify]
  refine all_get.bind (by simp) ?_
  intro r hr
  cases r with
  | none => intro h; simp at h
  | some a =>
    simp only [checkWith]
    split
    · next b hb =>
      intro h
      simp at h
      rw [h] at hb
      exact ⟨a, (hr a rfl rfl rfl).1, (hr a rfl rfl rfl).2, hb⟩
    · split
      · intro h; simp at h
      · intro h; simp at h

theorem all_report {resp : Response} {h : Option Str} : All (FromPrivate S) (StoresOnly W E priv)
    (fun r => ∀ x, r = .ok x → x = resp ∨ ∃ k, resp.set t!"invalidate_handle" k = .ok x)
    (CheckAuthRequest.reportHandle W E resp h) := by
  unfold CheckAuthRequest.reportHandle
  split
  · refine all_get.bind (by simp) ?_
    intro a _
    cases a with
    | none => intro x hx; exact .inr ⟨_, hx⟩
    | some a => intro x hx; simp at hx; exact .inl hx.symm
  · intro x hx; simp at hx; exact .inl hx.symm

theorem all_done {α : Type} (r : Except Err α) : All ans ops (fun x => x = r) (Prog.done r) := rfl

theorem all_checkAuth {r : CheckAuthRequest} : All (FromPrivate S) (StoresOnly W E priv)
    (fun o => ∀ resp, o = .ok resp → SaysValid resp → ∃ a, S r.assocHandle a ∧ ¬ expired (W.clock.seconds E.now) a ∧
      a.checkMessageSignature W.mac r.signed = .ok true) (r.answer W E) := by
  rw [CheckAuthRequest.answer]
  refine all_verify.bind (by simp) ?_
  intro valid hv
  refine all_drop.bind (by simp) ?_
  intro _ _
  refine (all_done _).bind (by simp) ?_
  intro r1 h1
  refine (all_done _).bind (by simp) ?_
  intro r2 h2
  refine all_report.mono ?_
  intro o ho resp hresp hvalid
  apply hv
  obtain ⟨n1, n2, n3⟩ := Response.new_ok h1.symm
  have h2 := h2.symm
  obtain ⟨oid, hoid⟩ : ∃ oid, r.message.getOpenIDNamespace = some oid := by
    cases ho : r.message.getOpenIDNamespace with
    | some o => exact ⟨o, rfl⟩
    | none =>
      have := n3 ho
      exact absurd (Response.set_none h2 (by rw [this]; rfl)) (by simp)
  have e1 := (n2 oid hoid).set (Response.set_ok h2).2
  have key : resp.fields.getArg .openid t!"is_valid" = .ok (some (if valid then t!"true" else t!"false")) := by
    rcases ho resp hresp with rfl | ⟨k, hk⟩
    · rw [e1.getArg]; simp
    · rw [(e1.set (Response.set_ok hk).2).getArg]; simp
  rw [SaysValid, key] at hvalid
  cases valid with
  | false => exact absurd hvalid (by decide)
  | true => rfl

theorem all_sign {r : Response} (hp : priv) : All (FromPrivate S) (StoresOnly W E priv) (fun _ => True) (sign W E r) := by
  have plain : All (FromPrivate S) (StoresOnly W E priv) (fun _ => True) (do
      let a ← createAssociation W E true t!"HMAC-SHA1"
      Prog.done (signWith W r a)) := (all_create fun _ => hp).bind (fun _ _ => trivial) (fun _ _ => trivial)
  have fb : ∀ h old, All (FromPrivate S) (StoresOnly W E priv) (fun _ => True) (fallBack W E r h old) := by
    intro h old
    rw [fallBack]
    refine (all_done _).bind (fun _ _ => trivial) ?_
    intro r' _
    cases old with
    | none => exact (all_create fun _ => hp).bind (fun _ _ => trivial) (fun _ _ => trivial)
    | some o =>
      refine all_drop.bind (fun _ _ => trivial) ?_
      intro _ _
      exact (all_create fun _ => hp).bind (fun _ _ => trivial) (fun _ _ => trivial)
  rw [sign]
  split
  · trivial
  · exact plain
  · exact plain
  · refine all_get.bind (fun _ _ => trivial) ?_
    intro a _
    unfold signFound
    split
    · exact fb _ _
    · split
      · exact fb _ _
      · trivial

/-- what every call does, whatever happens at the same time -/
theorem all_call (W : World) (E : Env) (S : Str → Assoc → Prop) (x : Call) :
    All (FromPrivate S) (StoresOnly W E x.isPrivate)
      (fun o => ∀ r resp, x = .checkAuth r → o = .ok (.response resp) → SaysValid resp →
        ∃ a, S r.assocHandle a ∧ ¬ expired (W.clock.seconds E.now) a ∧
          a.checkMessageSignature W.mac r.signed = .ok true) (x.prog W E) := by
  cases x with
  | associate n r =>
    refine All.bind (mid := fun _ => True) ?_ (by simp) (by simp [All, pure_def])
    rw [openidAssociate]
    split
    · exact (all_create (by simp)).bind (fun _ _ => trivial) (fun _ _ => trivial)
    · trivial
  | checkAuth r =>
    refine all_checkAuth.bind (by simp) ?_
    intro resp h r' resp' hr' hresp' hv
    simp only [Call.checkAuth.injEq] at hr'
    subst hr'
    simp at hresp'
    subst hresp'
    exact h resp rfl hv
  | sign r => exact (all_sign trivial).bind (by simp) (by simp [All, pure_def])
  | createAssociation dumb ty => exact (all_create (fun h => h)).bind (by simp) (by simp [All, pure_def])
  | verify k m => exact all_verify.bind (by simp) (by simp [All, pure_def])
  | getAssociation k dumb check => exact all_get.bind (by simp) (by simp [All, pure_def])
  | invalidate k dumb => exact all_drop.bind (by simp) (by simp [All, pure_def])
  | cleanupAssociations => exact ⟨by simp [StoresOnly], by simp, fun _ _ => by simp [All, pure_def]⟩
  | cleanupNonces => exact ⟨by simp [StoresOnly], by simp, fun _ _ => by simp [All, pure_def]⟩

end

theorem own_mem {i : Nat} {acts : List Act} {x : Op × Outcome} (h : x ∈ own i acts) :
    ∃ y ∈ acts, y.thread = i ∧ y.op = x.1 ∧ y.outcome = x.2 := by
  simp only [own, List.mem_map, List.mem_filter, beq_iff_eq] at h
  obtain ⟨y, ⟨h1, h2⟩, rfl⟩ := h
  exact ⟨y, h1, h2, rfl, rfl⟩

theorem mem_own {acts : List Act} {y : Act} (h : y ∈ acts) : (y.op, y.outcome) ∈ own y.thread acts := by
  simp only [own, List.mem_map, List.mem_filter, beq_iff_eq]
  exact ⟨y, ⟨h, rfl⟩, rfl⟩

end Server
