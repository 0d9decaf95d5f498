import Verif.Lemmas.MessageRT
import Verif.Spec.Message
/-! Helper lemmas: messages refine the abstract map; the invariant holds of every message. -/

namespace Message
open Py Spec NamespaceMap

theorem nsStep_inv (m : NamespaceMap) (hm : Inv m) (op : NsOp) : Inv (nsStep m op) := by
  cases op with
  | alias u a i =>
    rw [nsStep]
    cases h : m.addAlias u a i with
    | error e => exact hm
    | ok m' => exact inv_addAlias m hm _ _ _ _ h
  | add u =>
    rw [nsStep]
    cases h : m.add u with
    | error e => exact hm
    | ok m' => exact inv_add m hm _ _ h

theorem nsRun_inv (ops : List NsOp) (m : NamespaceMap) (hm : Inv m) : Inv (ops.foldl nsStep m) := by
  induction ops generalizing m with
  | nil => exact hm
  | cons op r ih => exact ih _ (nsStep_inv m hm op)

theorem nsRun_keeps (ops : List NsOp) (m : NamespaceMap) (hm : Inv m) :
    (∀ a u, m.aliasToNs.get? a = some u → (ops.foldl nsStep m).aliasToNs.get? a = some u) ∧
    (∀ u a, m.nsToAlias.get? u = some a → (ops.foldl nsStep m).nsToAlias.get? u = some a) := by
  induction ops generalizing m with
  | nil => exact ⟨fun _ _ h => h, fun _ _ h => h⟩
  | cons op r ih =>
    have hs := ih _ (nsStep_inv m hm op)
    have h1 : (∀ a u, m.aliasToNs.get? a = some u → (nsStep m op).aliasToNs.get? a = some u) ∧
        (∀ u a, m.nsToAlias.get? u = some a → (nsStep m op).nsToAlias.get? u = some a) := by
      cases op with
      | alias u a i =>
        rw [nsStep]
        cases h : m.addAlias u a i with
        | error e => exact ⟨fun _ _ h => h, fun _ _ h => h⟩
        | ok m' => exact addAlias_keeps m _ _ _ _ h
      | add u =>
        rw [nsStep]
        cases h : m.add u with
        | error e => exact ⟨fun _ _ h => h, fun _ _ h => h⟩
        | ok m' => exact add_keeps m hm _ _ h
    exact ⟨fun a u h => hs.1 a u (h1.1 a u h), fun u a h => hs.2 u a (h1.2 u a h)⟩

/-! ### refinement to the abstract map -/

theorem resolve_fixNS (m : Msg) (ns : Ns) :
    resolve m.getOpenIDNamespace ns = (m.fixNS ns).toOption := by
  cases ns with
  | openid => simp only [resolve, Msg.fixNS]; cases m.getOpenIDNamespace <;> rfl
  | bare => rfl
  | uri u => simp only [resolve, Msg.fixNS]; split <;> rfl
  | other => rfl

/-- the invariant and the abstraction -/
def Abs (m : Msg) (oid : Option Str) (f : ArgMap) : Prop :=
  MInv m ∧ m.getOpenIDNamespace = oid ∧ ∀ n k, m.args.get? (n, k) = f n k

theorem abs_setArg (m : Msg) (oid : Option Str) (f : ArgMap) (h : Abs m oid f) (ns : Ns) (n : NsKey)
    (hn : m.fixNS ns = .ok n) (k v : Str) :
    ∃ m', m.setArg ns k v = .ok m' ∧ Abs m' oid (f.put n k (some v)) := by
  obtain ⟨h1, h2, h3⟩ := h
  obtain ⟨m', e1, e2, e3, -, -, e6, -⟩ := setArg_ok m h1 ns k v n hn
  refine ⟨m', e1, e3, by rw [← h2]; exact e6, ?_⟩
  intro n' k'
  rw [e2, Dict.get?_set, ArgMap.put, ← h3]
  by_cases hh : n' = n ∧ k' = k
  · obtain ⟨rfl, rfl⟩ := hh; simp
  · rw [if_neg hh, if_neg]
    intro he; simp at he; exact hh ⟨he.1.symm, he.2.symm⟩

theorem abs_setArgs (ns : Ns) (n : NsKey) (oid : Option Str) (kvs : Dict Str Str) (m : Msg) (f : ArgMap)
    (h : Abs m oid f) (hn : ∀ m' : Msg, m'.getOpenIDNamespace = oid → m'.fixNS ns = .ok n) :
    ∃ m', kvs.foldlM (fun m p => m.setArg ns p.1 p.2) m = .ok m' ∧
      Abs m' oid (kvs.foldl (fun f p => f.put n p.1 (some p.2)) f) := by
  induction kvs generalizing m f with
  | nil => exact ⟨m, rfl, h⟩
  | cons p r ih =>
    obtain ⟨m1, e1, e2⟩ := abs_setArg m oid f h ns n (hn m h.2.1) p.1 p.2
    obtain ⟨m2, g1, g2⟩ := ih m1 _ e2
    exact ⟨m2, by rw [List.foldlM_cons, e1]; exact g1, g2⟩

theorem abs_updateArgs (m : Msg) (oid : Option Str) (f : ArgMap) (h : Abs m oid f) (ns : Ns) (n : NsKey)
    (hn : m.fixNS ns = .ok n) (kvs : Dict Str Str) :
    ∃ m', m.updateArgs ns kvs = .ok m' ∧ Abs m' oid (kvs.foldl (fun f p => f.put n p.1 (some p.2)) f) := by
  rw [Msg.updateArgs, hn]
  simp only [ok_bind]
  apply abs_setArgs _ n oid kvs m f h
  intro m' hm'
  have hfix := fixNS_fixed m h.1 ns n hn
  rw [← hfix]
  apply fixNS_same
  have : m'.getOpenIDNamespace = m.getOpenIDNamespace := by rw [hm', h.2.1]
  exact this

theorem abs_step (m : Msg) (oid : Option Str) (f : ArgMap) (h : Abs m oid f) (op : MsgOp) :
    Abs (msgStep m op) oid (mapStep oid f op) := by
  have hr := resolve_fixNS m
  rw [h.2.1] at hr
  cases op with
  | set ns k v =>
    rw [msgStep, mapStep, hr]
    cases hf : m.fixNS ns with
    | error e => rw [setArg_error m ns k v e hf]; exact h
    | ok n =>
      obtain ⟨m', e1, e2⟩ := abs_setArg m oid f h ns n hf k v
      rw [e1]; exact e2
  | del ns k =>
    rw [msgStep, mapStep, hr]
    cases hf : m.fixNS ns with
    | error e =>
      have : m.delArg ns k = .error e := by rw [Msg.delArg, hf]; rfl
      rw [this]; exact h
    | ok n =>
      cases hd : m.delArg ns k with
      | error e =>
        refine ⟨h.1, h.2.1, ?_⟩
        intro n' k'
        simp only [Except.toOption, ArgMap.put]
        split
        · next hh =>
          obtain ⟨rfl, rfl⟩ := hh
          rw [Msg.delArg, hf] at hd
          simp only [ok_bind] at hd
          split at hd
          · simp at hd
          · next hh =>
            simp [Dict.has] at hh
            exact hh
        · exact h.2.2 n' k'
      | ok m' =>
        obtain ⟨n2, e1, e2, e3, e4⟩ := delArg_spec m h.1 ns k m' hd
        rw [hf] at e1; simp at e1; subst e1
        refine ⟨e4, by simp only [Except.toOption, Option.getD_some]; rw [e3]; exact h.2.1, ?_⟩
        intro n' k'
        simp only [Except.toOption, Option.getD_some, ArgMap.put]
        rw [e3]
        simp only [Dict.get?_del _ h.1.wf]
        rw [← h.2.2]
        by_cases hh : n' = n ∧ k' = k
        · obtain ⟨rfl, rfl⟩ := hh; simp
        · rw [if_neg hh, if_neg]
          intro he; simp at he; exact hh ⟨he.1.symm, he.2.symm⟩
  | update ns kvs =>
    rw [msgStep, mapStep, hr]
    cases hf : m.fixNS ns with
    | error e =>
      have : m.updateArgs ns kvs = .error e := by rw [Msg.updateArgs, hf]; rfl
      rw [this]; exact h
    | ok n =>
      obtain ⟨m', e1, e2⟩ := abs_updateArgs m oid f h ns n hf kvs
      rw [e1]; exact e2

theorem abs_run (ops : List MsgOp) (m : Msg) (oid : Option Str) (f : ArgMap) (h : Abs m oid f) :
    Abs (ops.foldl msgStep m) oid (ops.foldl (mapStep oid) f) := by
  induction ops generalizing m f with
  | nil => exact h
  | cons op r ih => exact ih _ _ (abs_step m oid f h op)

theorem minv_updateArgs (m : Msg) (hm : MInv m) (ns : Ns) (kvs : Dict Str Str) (m' : Msg)
    (h : m.updateArgs ns kvs = .ok m') : MInv m' := by
  rw [Msg.updateArgs] at h
  obtain ⟨n, h1, h2⟩ := bind_eq_ok.1 h
  exact minv_foldlM _ _ (fun m p m' hm h => minv_setArg m hm _ _ _ _ h) m hm _ h2

theorem minv_built (reg : Dict Str Str) (m : Msg) (h : Built reg m) : MInv m := by
  induction h with
  | new u i m h => exact minv_new u i m h
  | parsed args m h => exact minv_fromPostArgs reg args m h
  | parsedOpenID args m h => exact minv_fromOpenIDArgs reg args m h
  | step m op _ ih => exact (abs_step m _ _ ⟨ih, rfl, fun _ _ => rfl⟩ op).1
  | extended m m' uri alias args _ h ih =>
    rw [Msg.addExtension] at h
    obtain ⟨nm, h1, h2⟩ := bind_eq_ok.1 h
    refine minv_updateArgs _ ?_ _ _ _ h2
    unfold Msg.extensionAlias at h1
    split at h1
    · next n hn => simp at h1; subst h1; exact minv_addAlias m ih _ _ _ _ hn
    · split at h1
      · simp at h1; subst h1; exact ih
      · simp at h1

end Message
