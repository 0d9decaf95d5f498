import Verif.Lemmas.ServerRace
import Verif.Lemmas.ServerStores
import Verif.Props.Association
import Verif.Props.DH
import Verif.Props.MemStore
import Verif.Props.Urinorm
/-! # C30-C32: check_authentication and signing -/

namespace Props
open Py Message Association Store Server Spec

/-! ## Stores -/

/-- The memory store and the SQL stores (with any faults) do what is asked of a store below. -/
theorem c30_memory_store (c : Clock) : Faithful c (MemStore.keptStep c) MemStore.keptView := MemStore.faithful c

theorem c30_sql_store (D : SqlStore.Driver) (c : Clock) :
    Faithful c (SqlStore.keptStep D c) (SqlStore.keptView (D := D)) := SqlStore.faithful D c

/-- no private association is held -/
def NonePrivate {σ : Type} (view : σ → AssocMap) (s : σ) : Prop := ∀ h, view s dumbKey h = none

theorem known_nil {σ : Type} {view : σ → AssocMap} {s : σ} (W : World) (h : NonePrivate view s) :
    Known W [] (view s) := by
  intro k a ha; rw [h k] at ha; simp at ha

/-! ## C30 -/

/-- **C30** Over any history of calls on a server whose store holds no private association at the start (shared
    associations it may hold): if a check_authentication request is answered `is_valid:true`, then an earlier call made
    a private association with the handle in the request, no check_authentication request for that handle was answered
    since, nor was it invalidated, it has not expired, and the signature in the request is the one it makes. -/
theorem c30_only_private {σ : Type} (W : World) (step : σ → Event → σ × Outcome) (view : σ → AssocMap)
    (hf : Faithful W.clock step view) (s : σ) (hs : NonePrivate view s) (hist : List (Env × Call))
    (before after : List Seen) (E : Env) (r : CheckAuthRequest) (resp : Response)
    (h : (serve W step s hist).1 = before ++ ⟨E, .checkAuth r, .ok (.response resp)⟩ :: after)
    (hv : SaysValid resp) :
    ∃ a, PrivateIn W before a ∧ a.handle = r.assocHandle ∧ W.clock.seconds E.now < a.issued + a.lifetime ∧
      a.checkMessageSignature W.mac r.signed = .ok true := by
  obtain ⟨s', hk, hr⟩ := serve_known hf (known_nil W hs) h
  simp only [List.nil_append, Call.prog] at hk hr
  cases hrun : Prog.run step E.now s' (r.answer W E) with
  | mk s'' o =>
    rw [run_bind, hrun] at hr
    cases o with
    | error e => simp at hr
    | ok resp' =>
      simp only [run_pure, Except.ok.injEq, Reply.response.injEq] at hr
      subst hr
      obtain ⟨a, ha, hx, hc⟩ := ((run_checkAuth hf rfl rfl hrun).2 resp rfl).2.1 hv
      obtain ⟨h1, h2⟩ := hk _ _ ha
      refine ⟨a, h1, h2, ?_, hc⟩
      simp only [expired] at hx; omega

/-- **C30** In particular no signature is validated under a handle that no private association was given, such as one that
    came out of `associate`. -/
theorem c30_shared {σ : Type} (W : World) (step : σ → Event → σ × Outcome) (view : σ → AssocMap)
    (hf : Faithful W.clock step view) (s : σ) (hs : NonePrivate view s) (hist : List (Env × Call))
    (before after : List Seen) (E : Env) (r : CheckAuthRequest) (resp : Response)
    (h : (serve W step s hist).1 = before ++ ⟨E, .checkAuth r, .ok (.response resp)⟩ :: after)
    (hh : ∀ x ∈ before, x.call.isPrivate → ∀ a, Makes W x.env a → a.handle ≠ r.assocHandle) :
    ¬ SaysValid resp := by
  intro hv
  obtain ⟨a, ⟨b, x, af, rfl, h1, h2, -⟩, h3, -⟩ := c30_only_private W step view hf s hs hist before after E r resp h hv
  exact hh x (by simp) h1 a h2 h3

/-- **C30** under any schedule.  Calls run at the same time, their store operations interleaved in any order, calls
    stopping anywhere.  All that is asked of the store is that what it returns as a private association was stored as
    one before.  A check_authentication that answers `is_valid:true` found the signature good with an unexpired
    association that one of the calls had made as a private one, with that handle. -/
theorem c30_any_schedule (W : World) (calls : Nat → Env × Call) (acts : List Act) (hr : Runs W calls acts)
    (ht : TellsStored dumbKey acts) (i : Nat) (r : CheckAuthRequest) (resp : Response)
    (hc : (calls i).2 = .checkAuth r) (hi : Returned W calls acts i (.ok (.response resp))) (hv : SaysValid resp) :
    ∃ j a, (calls j).2.isPrivate ∧ Makes W (calls j).1 a ∧ a.handle = r.assocHandle ∧
      W.clock.seconds (calls i).1.now < a.issued + a.lifetime ∧ a.checkMessageSignature W.mac r.signed = .ok true := by
  let S : Str → Assoc → Prop := fun h a => a.handle = h ∧ ∃ y ∈ acts, y.op = .storeAssociation dumbKey a
  have hans : ∀ j, ∀ x ∈ own j acts, ∀ a, x.2 = .ok a → FromPrivate S x.1 a := by
    intro j x hx a ha k b hop hb
    obtain ⟨y, hy, -, h1, h2⟩ := own_mem hx
    obtain ⟨bf, af, rfl⟩ := List.append_of_mem hy
    obtain ⟨g1, z, hz, g2⟩ := ht bf y af k b rfl (by rw [h1, hop]) (by rw [h2, ha, hb])
    exact ⟨g1, z, by simp [hz], g2⟩
  have hcall := (all_call W (calls i).1 S (calls i).2).follow (hans i) hi
  obtain ⟨a, ⟨ha1, y, hy, ha2⟩, hx, hck⟩ := hcall.2 r resp hc rfl hv
  have hy' : StoresOnly W (calls y.thread).1 (calls y.thread).2.isPrivate y.op := by
    obtain ⟨q, hq⟩ := Option.isSome_iff_exists.1 (hr y.thread)
    exact ((all_call W (calls y.thread).1 S (calls y.thread).2).follow (hans y.thread) hq).1 _ (mem_own hy)
  obtain ⟨h1, h2⟩ := hy' dumbKey a ha2
  refine ⟨y.thread, a, ?_, h2, ha1, ?_, hck⟩
  · rcases h1 with h1 | h1
    · exact absurd h1 dumb_ne_normal
    · exact h1.2
  · simp only [expired] at hx; omega

/-- **C30** Whatever else happens, no call stores an association under any name but the server's two, nor one it did not
    make then and there, nor, unless it is a private call, under the private name. -/
theorem c30_stores (W : World) (calls : Nat → Env × Call) (acts : List Act) (hr : Runs W calls acts) (x : Act)
    (hx : x ∈ acts) (url : Str) (a : Assoc) (ho : x.op = .storeAssociation url a) :
    Makes W (calls x.thread).1 a ∧
    (url = t!"http://localhost/|normal" ∨ url = t!"http://localhost/|dumb" ∧ (calls x.thread).2.isPrivate) := by
  obtain ⟨q, hq⟩ := Option.isSome_iff_exists.1 (hr x.thread)
  have := ((all_call W (calls x.thread).1 (fun _ _ => True) (calls x.thread).2).follow
    (fun x _ a _ h b _ _ => trivial) hq).1 _ (mem_own hx)
  obtain ⟨h1, h2⟩ := this url a ho
  exact ⟨h2, h1⟩

/-! ## C31 -/

/-- **C31** When one check_authentication request for a handle has been answered, whatever the answer, a later one is
    answered `is_valid:true` only if in between a call made a private association with the same handle again. -/
theorem c31_once {σ : Type} (W : World) (step : σ → Event → σ × Outcome) (view : σ → AssocMap)
    (hf : Faithful W.clock step view) (s : σ) (hs : NonePrivate view s) (hist : List (Env × Call))
    (before between after : List Seen) (E₁ E₂ : Env) (r₁ r₂ : CheckAuthRequest) (resp₁ resp₂ : Response)
    (hh : r₁.assocHandle = r₂.assocHandle)
    (h : (serve W step s hist).1 = before ++ ⟨E₁, .checkAuth r₁, .ok (.response resp₁)⟩ ::
      (between ++ ⟨E₂, .checkAuth r₂, .ok (.response resp₂)⟩ :: after))
    (hv : SaysValid resp₂) :
    ∃ x ∈ between, x.call.isPrivate ∧ ∃ a, Makes W x.env a ∧ a.handle = r₂.assocHandle := by
  obtain ⟨a, ⟨b, x, af, hsplit, h1, h2, h3⟩, h4, -⟩ := c30_only_private W step view hf s hs hist
    (before ++ ⟨E₁, .checkAuth r₁, .ok (.response resp₁)⟩ :: between) after E₂ r₂ resp₂ (by rw [h]; simp) hv
  rcases List.append_eq_append_iff.1 hsplit with ⟨as, rfl, has⟩ | ⟨bs, rfl, hbs⟩
  · cases as with
    | nil =>
      simp only [List.nil_append, List.cons.injEq] at has
      rw [← has.1] at h1
      simp [Call.isPrivate] at h1
    | cons y as =>
      simp only [List.cons_append, List.cons.injEq] at has
      exact ⟨x, by rw [has.2]; simp, h1, a, h2, h4⟩
  · cases bs with
    | nil =>
      simp only [List.nil_append, List.cons.injEq] at hbs
      rw [hbs.1] at h1
      simp [Call.isPrivate] at h1
    | cons y bs =>
      simp only [List.cons_append, List.cons.injEq] at hbs
      obtain ⟨e, he⟩ := h3 ⟨E₁, .checkAuth r₁, .ok (.response resp₁)⟩ (by rw [hbs.2]; simp)
        (by simp [Call.consumes, hh, h4])
      simp at he

/-- **C31** The first request is answered `is_valid:true`: the private association is held and not expired, and the
    signature is the one it makes.  Afterwards it is gone. -/
theorem c31_first {σ : Type} (W : World) (step : σ → Event → σ × Outcome) (view : σ → AssocMap)
    (hf : Faithful W.clock step view) (s s' : σ) (E : Env) (r : CheckAuthRequest) (resp : Response) (a : Assoc)
    (ha : view s dumbKey r.assocHandle = some a) (hx : W.clock.seconds E.now < a.issued + a.lifetime)
    (hc : a.checkMessageSignature W.mac r.signed = .ok true)
    (h : Prog.run step E.now s (r.answer W E) = (s', .ok resp)) :
    SaysValid resp ∧ view s' dumbKey r.assocHandle = none := by
  obtain ⟨h1, h2, h3⟩ := (run_checkAuth hf rfl rfl h).2 resp rfl
  exact ⟨h3 a ha (by simp only [expired]; omega) hc, h1⟩

/-! ## A concrete server -/

def smac0 : Mac := fun _ k x => k.take 2 ++ [x.foldl (fun a b => a * 3 + b) 7]

def sworld0 : World := ⟨clock0, smac0, id, id, toyLib, uni0, []⟩

def senv0 : Env := ⟨5000, fun n => List.replicate n 65, [1, 2, 3, 4], t!"salt", 3⟩

def msgOf (kvs : Dict Str Str) : Msg :=
  match (do (← Msg.new (some OPENID2_NS)).updateArgs .openid kvs : Except PyErr Msg) with
  | .ok m => m
  | .error _ => {}

/-- a request to the server with or without a handle, and the positive answer before it is signed -/
def checkid0 (handle : Option Str) : CheckIDRequest :=
  ⟨msgOf [], some t!"http://u/", some t!"http://u/", some t!"http://rp/", some t!"http://rp/", handle, some t!"http://op/",
    false⟩

def unsigned0 (handle : Option Str) : Response :=
  ⟨.checkId (checkid0 handle), msgOf [(t!"mode", t!"id_res"), (t!"return_to", t!"http://rp/")]⟩

/-- the check_authentication request a stateless consumer makes of a signed response -/
def ask0 (r : Response) : CheckAuthRequest :=
  match r.fields.getArg .openid t!"assoc_handle" with
  | .ok (some h) => ⟨r.fields, h, r.fields, none⟩
  | _ => ⟨r.fields, [], r.fields, none⟩

def reply0 (x : Except Err Reply) : Option Response :=
  match x with
  | .ok (.response r) => some r
  | _ => none

/-- what the server makes of `unsigned0` first thing -/
def signed0 (handle : Option Str) : Response :=
  ((serve sworld0 (MemStore.keptStep clock0) MemStore.keptInit [(senv0, .sign (unsigned0 handle))]).1.head?.bind
    fun x => reply0 x.reply).getD (unsigned0 handle)

/-- the answers `is_valid` of a history -/
def validity0 (hist : List (Env × Call)) : List (Option Str) :=
  (serve sworld0 (MemStore.keptStep clock0) MemStore.keptInit hist).1.map fun x =>
    (reply0 x.reply).bind fun r => (r.fields.getArg .openid t!"is_valid").toOption.join

example : NonePrivate MemStore.keptView MemStore.keptInit := fun _ => rfl

-- signed without handle: valid once; made again with the same handle: valid again; the shared one is never valid
example : validity0 [(senv0, .sign (unsigned0 none)), (senv0, .checkAuth (ask0 (signed0 none))),
    (senv0, .checkAuth (ask0 (signed0 none))), (senv0, .sign (unsigned0 none)),
    (senv0, .checkAuth (ask0 (signed0 none)))] = [none, some t!"true", some t!"false", none, some t!"true"] := by
  decide +kernel

example : validity0 [(senv0, .createAssociation false t!"HMAC-SHA1"), (senv0, .checkAuth (ask0 (signed0 none)))] =
    [none, some t!"false"] := by decide +kernel

/-- the private association `signed0 none` is signed with -/
def private0 : Assoc := ⟨t!"{HMAC-SHA1}{5}{AQIDBA==}", List.replicate 20 65, 5, 1209600, t!"HMAC-SHA1"⟩

/-- one call signs a response, all others ask whether the signature is good -/
def calls0 (i : Nat) : Env × Call :=
  if i = 0 then (senv0, .sign (unsigned0 none)) else (senv0, .checkAuth (ask0 (signed0 none)))

/-- two of them look the association up before either removes it -/
def acts0 : List Act :=
  [⟨0, .storeAssociation dumbKey private0, .ok .nothing⟩,
   ⟨1, .getAssociation dumbKey (some private0.handle), .ok (.assoc (some private0))⟩,
   ⟨2, .getAssociation dumbKey (some private0.handle), .ok (.assoc (some private0))⟩,
   ⟨1, .removeAssociation dumbKey private0.handle, .ok (.bool true)⟩,
   ⟨2, .removeAssociation dumbKey private0.handle, .ok (.bool false)⟩]

/-- the call has returned a response that says valid -/
def saidValid (W : World) (calls : Nat → Env × Call) (acts : List Act) (i : Nat) : Bool :=
  match follow ((calls i).2.prog W (calls i).1) (own i acts) with
  | some (.done (.ok (.response r))) => decide (r.fields.getArg .openid t!"is_valid" = .ok (some t!"true"))
  | _ => false

theorem saidValid_iff (W : World) (calls : Nat → Env × Call) (acts : List Act) (i : Nat)
    (h : saidValid W calls acts i = true) :
    ∃ resp, Returned W calls acts i (.ok (.response resp)) ∧ SaysValid resp := by
  unfold saidValid at h
  split at h
  · next r hr => exact ⟨r, hr, by simpa [SaysValid] using h⟩
  · simp at h

theorem runs0 : Runs sworld0 calls0 acts0 := by
  intro i
  match i with
  | 0 => decide +kernel
  | 1 => decide +kernel
  | 2 => decide +kernel
  | n + 3 =>
    have : own (n + 3) acts0 = [] := by simp [own, acts0]
    rw [this]; rfl

theorem onStore0 : OnStore (MemStore.keptStep clock0) 5000 MemStore.keptInit acts0 :=
  ⟨by decide +kernel, by decide +kernel, by decide +kernel, by decide +kernel, by decide +kernel, trivial⟩

-- the hypotheses of `c30_any_schedule` are met by this execution
example : Runs sworld0 calls0 acts0 ∧ TellsStored dumbKey acts0 ∧
    ∃ resp, Returned sworld0 calls0 acts0 1 (.ok (.response resp)) ∧ SaysValid resp := by
  refine ⟨runs0, ?_, saidValid_iff _ _ _ _ (by decide +kernel)⟩
  intro before x after handle a h1 h2 h3
  have hb : acts0.head? = some ⟨0, .storeAssociation dumbKey private0, .ok .nothing⟩ := rfl
  cases before with
  | nil =>
    simp only [List.nil_append] at h1
    rw [h1] at hb; simp at hb; rw [hb] at h2; simp at h2
  | cons y b =>
    have hx : x ∈ acts0 := by rw [h1]; simp
    have hy : y = ⟨0, .storeAssociation dumbKey private0, .ok .nothing⟩ := by
      rw [h1] at hb; simpa using hb
    have ha : a = private0 ∧ handle = private0.handle := by
      simp only [acts0, List.mem_cons, List.not_mem_nil, or_false] at hx
      rcases hx with rfl | rfl | rfl | rfl | rfl <;> simp at h2 h3
      · exact ⟨h3.symm, h2.symm⟩
      · exact ⟨h3.symm, h2.symm⟩
    rw [ha.1, ha.2]
    exact ⟨rfl, y, by simp, by rw [hy]⟩

/-- **C31** does not hold when two requests are served at the same time: verifying and invalidating are two steps, and
    both requests can verify before either invalidates (`CheckAuthRequest.answer`, lines 255-256).  Here one call signs,
    making one private association, and two others ask about it; both are told it is valid. -/
theorem c31_race : ∃ (calls : Nat → Env × Call) (acts : List Act) (r : CheckAuthRequest),
    calls 1 = (senv0, .checkAuth r) ∧ calls 2 = (senv0, .checkAuth r) ∧ (∀ i, i ≠ 0 → ¬ (calls i).2.isPrivate) ∧
    Runs sworld0 calls acts ∧ OnStore (MemStore.keptStep clock0) 5000 MemStore.keptInit acts ∧
    (∃ resp, Returned sworld0 calls acts 1 (.ok (.response resp)) ∧ SaysValid resp) ∧
    (∃ resp, Returned sworld0 calls acts 2 (.ok (.response resp)) ∧ SaysValid resp) := by
  refine ⟨calls0, acts0, ask0 (signed0 none), rfl, rfl, ?_, runs0, onStore0,
    saidValid_iff _ _ _ _ (by decide +kernel), saidValid_iff _ _ _ _ (by decide +kernel)⟩
  intro i hi
  simp [calls0, hi, Call.isPrivate]

/-! ## C32 -/

/-- **C32** The request named a shared association that is held and not expired: the response is signed with it, nothing
    else is changed in it, and the store is as before (but for expired associations). -/
theorem c32_named {σ : Type} (W : World) (step : σ → Event → σ × Outcome) (view : σ → AssocMap)
    (hf : Faithful W.clock step view) (s s' : σ) (E : Env) (r resp : Response) (handle : Str) (a : Assoc)
    (hh : r.request.assocHandle = .ok (some handle)) (hne : handle ≠ [])
    (ha : view s t!"http://localhost/|normal" handle = some a)
    (hx : W.clock.seconds E.now < a.issued + a.lifetime)
    (h : Prog.run step E.now s (sign W E r) = (s', .ok resp)) :
    a.signMessage W.mac r.fields = .ok resp.fields ∧ resp.request = r.request ∧
    Fades (W.clock.seconds E.now) (view s) (view s') := by
  rw [sign, hh] at h
  cases handle with
  | nil => exact absurd rfl hne
  | cons ch handle =>
    simp only at h
    obtain ⟨s1, a1, h1, h2⟩ := run_bind_ok _ _ h
    have hx' : ¬ expired (W.clock.seconds E.now) a := by simp only [expired]; omega
    obtain ⟨h3, h4⟩ := ((run_getAssociation hf rfl rfl h1).2 a1 rfl).2.2 a ha hx'
    subst h3
    simp only [signFound, Env.seconds, expires_iff, hx', if_false, run_done, Prod.mk.injEq] at h2
    obtain ⟨rfl, h2⟩ := h2
    simp only [signWith] at h2
    split at h2
    · next f hs => simp at h2; subst h2; exact ⟨hs, rfl, h4⟩
    · split at h2 <;> simp at h2

theorem signWith_ok {W : World} {r resp : Response} {a : Assoc} (h : signWith W r a = .ok resp) :
    a.signMessage W.mac r.fields = .ok resp.fields ∧ resp.request = r.request := by
  simp only [signWith] at h
  split at h
  · next f hs => simp at h; subst h; exact ⟨hs, rfl⟩
  · split at h <;> simp at h

/-- **C32** The request named a handle that is not that of a shared association, or whose association has expired: the
    response carries that handle as `invalidate_handle` and is signed with a private association made for it, which the
    store now holds; a live shared association under that handle there is none. -/
theorem c32_fallback {σ : Type} (W : World) (step : σ → Event → σ × Outcome) (view : σ → AssocMap)
    (hf : Faithful W.clock step view) (s s' : σ) (E : Env) (r resp : Response) (handle : Str)
    (hh : r.request.assocHandle = .ok (some handle)) (hne : handle ≠ [])
    (hx : ∀ a, view s t!"http://localhost/|normal" handle = some a → a.issued + a.lifetime ≤ W.clock.seconds E.now)
    (h : Prog.run step E.now s (sign W E r) = (s', .ok resp)) :
    ∃ a m, Makes W E a ∧ r.fields.setArg .openid t!"invalidate_handle" handle = .ok m ∧
      a.signMessage W.mac m = .ok resp.fields ∧ resp.request = r.request ∧
      view s' t!"http://localhost/|dumb" a.handle = some a ∧
      (∀ b, view s' t!"http://localhost/|normal" handle = some b → b.issued + b.lifetime ≤ W.clock.seconds E.now) ∧
      (a.assocType = t!"HMAC-SHA1" ∨
        ∃ b, view s t!"http://localhost/|normal" handle = some b ∧ a.assocType = b.assocType) := by
  rw [sign, hh] at h
  cases handle with
  | nil => exact absurd rfl hne
  | cons ch handle =>
    simp only at h
    obtain ⟨s1, a1, h1, h2⟩ := run_bind_ok _ _ h
    obtain ⟨g0, g⟩ := run_getAssociation hf rfl rfl h1
    obtain ⟨g1, g2, g3⟩ := g a1 rfl
    have h2 : Prog.run step E.now s1 (fallBack W E r (ch :: handle) a1) = (s', .ok resp) := by
      cases a1 with
      | none => exact h2
      | some a =>
        have : expired (W.clock.seconds E.now) a := hx a (g1 a rfl).1
        simpa only [signFound, Env.seconds, expires_iff, this, if_true] using h2
    rw [fallBack] at h2
    obtain ⟨s2, r1, h3, h4⟩ := run_bind_ok _ _ h2
    simp only [run_done, Prod.mk.injEq] at h3
    obtain ⟨rfl, h3⟩ := h3
    obtain ⟨q1, q2⟩ := Response.set_ok h3
    have fin : ∀ (s2 : σ) (ty : Str), Sub (view s2) (view s) → Prog.run step E.now s2 (do
        let a ← createAssociation W E true ty
        Prog.done (signWith W r1 a)) = (s', .ok resp) →
        ∃ a m, Makes W E a ∧ r.fields.setArg .openid t!"invalidate_handle" (ch :: handle) = .ok m ∧
        a.signMessage W.mac m = .ok resp.fields ∧ resp.request = r.request ∧
        view s' t!"http://localhost/|dumb" a.handle = some a ∧
        (∀ b, view s' t!"http://localhost/|normal" (ch :: handle) = some b →
          b.issued + b.lifetime ≤ W.clock.seconds E.now) ∧ a.assocType = ty := by
      intro s2 ty hsub hr
      obtain ⟨s3, a, k1, k2⟩ := run_bind_ok _ _ hr
      simp only [run_done, Prod.mk.injEq] at k2
      obtain ⟨rfl, k2⟩ := k2
      obtain ⟨k3, k4⟩ := signWith_ok k2
      rcases run_create hf k1 with ⟨a', ha', hn, hv⟩ | ⟨e, he, -⟩
      · simp at ha'; subst ha'
        obtain ⟨m1, m2⟩ := newAssociation_ok hn
        refine ⟨a, r1.fields, m1, q2, k3, by rw [k4, q1], ?_, ?_, m2⟩
        · rw [hv]; simp [storeKey, dumbKey]
        · intro b hb
          rw [hv] at hb
          have hne : ¬ (t!"http://localhost/|normal" = storeKey true ∧ ch :: handle = a.handle) :=
            fun e => absurd e.1 (by decide)
          simp only [hne, if_false] at hb
          exact hx b (hsub _ _ _ hb)
      · simp at he
    cases a1 with
    | none =>
      simp only at h4
      obtain ⟨a, m, p1, p2, p3, p4, p5, p6, p7⟩ := fin s1 _ g0 h4
      exact ⟨a, m, p1, p2, p3, p4, p5, p6, .inl p7⟩
    | some o =>
      simp only at h4
      obtain ⟨s3, _, k1, k2⟩ := run_bind_ok _ _ h4
      obtain ⟨a, m, p1, p2, p3, p4, p5, p6, p7⟩ := fin s3 _ ((drop_sub hf k1).trans g0) k2
      refine ⟨a, m, p1, p2, p3, p4, p5, p6, ?_⟩
      split at p7
      · exact .inl p7
      · exact .inr ⟨o, (g1 o rfl).1, p7⟩

/-- **C32** The request named no handle: the response is signed with a new private association, nothing else is changed
    in it, and no `invalidate_handle` is added. -/
theorem c32_stateless {σ : Type} (W : World) (step : σ → Event → σ × Outcome) (view : σ → AssocMap)
    (hf : Faithful W.clock step view) (s s' : σ) (E : Env) (r resp : Response)
    (hh : r.request.assocHandle = .ok none ∨ r.request.assocHandle = .ok (some []))
    (h : Prog.run step E.now s (sign W E r) = (s', .ok resp)) :
    ∃ a, Makes W E a ∧ a.assocType = t!"HMAC-SHA1" ∧ a.signMessage W.mac r.fields = .ok resp.fields ∧
      resp.request = r.request ∧
      view s' = fun u h => if u = t!"http://localhost/|dumb" ∧ h = a.handle then some a else view s u h := by
  have h : Prog.run step E.now s (do
      let a ← createAssociation W E true t!"HMAC-SHA1"
      Prog.done (signWith W r a)) = (s', .ok resp) := by
    rcases hh with hh | hh <;> · rw [sign, hh] at h; exact h
  obtain ⟨s3, a, k1, k2⟩ := run_bind_ok _ _ h
  simp only [run_done, Prod.mk.injEq] at k2
  obtain ⟨rfl, k2⟩ := k2
  obtain ⟨k3, k4⟩ := signWith_ok k2
  rcases run_create hf k1 with ⟨a', ha', hn, hv⟩ | ⟨e, he, -⟩
  · simp at ha'; subst ha'
    exact ⟨a, (newAssociation_ok hn).1, (newAssociation_ok hn).2, k3, k4, hv⟩
  · simp at he

/-- the value of a field in the answer to the last call -/
def lastField0 (hist : List (Env × Call)) (field : Str) : Option Str :=
  (serve sworld0 (MemStore.keptStep clock0) MemStore.keptInit hist).1.getLast?.bind fun x =>
    (reply0 x.reply).bind fun r => (r.fields.getArg .openid field).toOption.join

/-- a later moment, after the associations made at `senv0` have expired -/
def senvLate0 : Env := { senv0 with now := 1300000000, uniq := [9, 9, 9, 9] }

-- a known handle; an unknown one; an expired one
example : lastField0 [(senv0, .createAssociation false t!"HMAC-SHA1"), (senv0, .sign (unsigned0 (some private0.handle)))]
    t!"assoc_handle" = some private0.handle ∧
  lastField0 [(senv0, .createAssociation false t!"HMAC-SHA1"), (senv0, .sign (unsigned0 (some private0.handle)))]
    t!"invalidate_handle" = none ∧
  lastField0 [(senv0, .sign (unsigned0 (some t!"other")))] t!"assoc_handle" = some private0.handle ∧
  lastField0 [(senv0, .sign (unsigned0 (some t!"other")))] t!"invalidate_handle" = some t!"other" ∧
  lastField0 [(senv0, .createAssociation false t!"HMAC-SHA256"),
    (senvLate0, .sign (unsigned0 (some t!"{HMAC-SHA256}{5}{AQIDBA==}")))] t!"invalidate_handle" =
      some t!"{HMAC-SHA256}{5}{AQIDBA==}" ∧
  lastField0 [(senv0, .createAssociation false t!"HMAC-SHA256"),
    (senvLate0, .sign (unsigned0 (some t!"{HMAC-SHA256}{5}{AQIDBA==}")))] t!"assoc_handle" =
      some t!"{HMAC-SHA256}{13d620}{CQkJCQ==}" := by decide +kernel

end Props
