import Verif.Props.Consumer
/-! # C39: signed values -/

namespace Props
open Py Message Association Cryptutil Store Discover Consumer Spec

/-- A response as it arrived, where no namespace is the literal word `sreg` (see `c07_sreg_literal_breaks`). -/
structure Arrived (reg q : Dict Str Str) (m : Msg) : Prop where
  wf : Dict.WF q
  parsed : fromPostArgs reg q = .ok m
  registered : ∀ alias uri, reg.get? alias = some uri → uri ≠ t!"sreg"
  declared : ∀ alias uri, q.get? (t!"openid.ns." ++ alias) = some uri → uri ≠ t!"sreg"

/-- C39: the value of an argument is what arrived under its key. -/
theorem c39_key {reg q : Dict Str Str} {m : Msg} (h : Arrived reg q m) {ns : Ns} {key v : Str}
    (hv : m.getArg ns key = .ok (some v)) :
    ∃ K, m.getKey ns key = .ok (some K) ∧ q.get? K = some v ∧ m.toPostArgs.get? K = some v := by
  obtain ⟨K, hK⟩ := c09_every_arg_has_key reg m (.parsed q m h.parsed) ns key v hv
  have hd : ∀ k v, (t!"openid.ns." ++ k, v) ∈ q → v ≠ t!"sreg" :=
    fun k v hkv => h.declared k v (Dict.get?_of_mem q h.wf _ _ hkv)
  obtain ⟨-, hp⟩ := roundtrip_pairs reg q h.wf h.registered hd m h.parsed
  have hmem : (K, v) ∈ argPairs m := by
    rw [Msg.getArg] at hv
    rw [Msg.getKey] at hK
    obtain ⟨n, h1, h2⟩ := bind_eq_ok.1 hv
    rw [h1] at hK
    simp only [pure_eq_ok, Except.ok.injEq, ok_bind] at h2 hK
    exact mem_argPairs.2 ⟨n, key, Dict.get?_mem _ _ _ h2, hK⟩
  have hq := Dict.get?_of_mem q h.wf _ _ (hp.mem_iff.1 (List.mem_append_right _ hmem))
  refine ⟨K, hK, hq, ?_⟩
  rw [(c07_roundtrip reg q h.wf h.registered h.declared m h.parsed).2 K, hq]

/-- C39: `getSigned` gives a value only if the name it arrived under is in the signed list, and it is the value the
    signature is made over. -/
theorem c39_getSigned {reg q : Dict Str Str} {m : Msg} (h : Arrived reg q m) (names : List Str) (ns : Ns) (key v : Str)
    (hv : getSigned m (names.map (t!"openid." ++ ·)) ns key = .ok (some v)) :
    m.getArg ns key = .ok (some v) ∧
    ∃ f ∈ names, m.getKey ns key = .ok (some (t!"openid." ++ f)) ∧ q.get? (t!"openid." ++ f) = some v ∧
      m.toPostArgs.get? (t!"openid." ++ f) = some v := by
  rw [getSigned] at hv
  obtain ⟨b, h1, h2⟩ := bind_eq_ok.1 hv
  cases b with
  | false => simp at h2
  | true =>
    rw [if_pos rfl] at h2
    refine ⟨h2, ?_⟩
    obtain ⟨K, hK, hq, hp⟩ := c39_key h h2
    rw [isSigned, hK] at h1
    simp only [ok_bind, pure_eq_ok, Except.ok.injEq, List.contains_iff_mem, List.mem_map] at h1
    obtain ⟨f, hf, rfl⟩ := h1
    exact ⟨f, hf, hK, hq, hp⟩

/-- C39: an argument whose name is in the signed list is given. -/
theorem c39_getSigned_complete {reg q : Dict Str Str} {m : Msg} (h : Arrived reg q m) (names : List Str) (ns : Ns)
    (key v f : Str) (hv : m.getArg ns key = .ok (some v)) (hk : m.getKey ns key = .ok (some (t!"openid." ++ f)))
    (hf : f ∈ names) : getSigned m (names.map (t!"openid." ++ ·)) ns key = .ok (some v) := by
  have hc : ((names.map (t!"openid." ++ ·)).contains (t!"openid." ++ f)) = true := by
    rw [List.contains_iff_mem, List.mem_map]; exact ⟨f, hf, rfl⟩
  rw [getSigned, isSigned, hk]
  simp only [ok_bind, pure_eq_ok, hc, if_true, hv]

theorem allSigned_ok {m : Msg} {signed : List Str} {ns : Ns} {l : List Str} {b : Bool}
    (h : allSigned m signed ns l = .ok b) : b = true ↔ ∀ k ∈ l, isSigned m signed ns k = .ok true := by
  induction l with
  | nil => simp [allSigned] at h; simp [← h]
  | cons k r ih =>
    rw [allSigned] at h
    obtain ⟨x, h1, h2⟩ := bind_eq_ok.1 h
    cases x with
    | false => simp at h2; subst h2; simp [h1]
    | true => rw [if_pos rfl] at h2; rw [ih h2]; simp [h1]

/-- C39: `getSignedNS` gives the arguments of a namespace only if every one of them arrived under a name in the signed
    list; then it gives all of them, with the values the signature is made over. -/
theorem c39_getSignedNS {reg q : Dict Str Str} {m : Msg} (h : Arrived reg q m) (names : List Str) (ns : Ns)
    (d : Dict Str Str) (hv : getSignedNS m (names.map (t!"openid." ++ ·)) ns = .ok (some d)) :
    Dict.WF d ∧ (∀ key, m.getArg ns key = .ok (d.get? key)) ∧
    ∀ key v, d.get? key = some v → ∃ f ∈ names, m.getKey ns key = .ok (some (t!"openid." ++ f)) ∧
      q.get? (t!"openid." ++ f) = some v ∧ m.toPostArgs.get? (t!"openid." ++ f) = some v := by
  rw [getSignedNS] at hv
  obtain ⟨args, h1, hv⟩ := bind_eq_ok.1 hv
  obtain ⟨b, h2, hv⟩ := bind_eq_ok.1 hv
  cases b with
  | false => simp at hv
  | true =>
    simp at hv; subst hv
    obtain ⟨hw, hg⟩ := c09_getArgs reg m (.parsed q m h.parsed) ns args h1
    refine ⟨hw, hg, fun key v hkv => ?_⟩
    have hs := (allSigned_ok h2).1 rfl key ((Dict.mem_keys_iff args key).2 (by rw [hkv]; rfl))
    have := c39_getSigned h names ns key v (by rw [getSigned, hs, ok_bind, if_pos rfl, hg key, hkv])
    exact this.2

/-- C39: `getSignedNS` gives `None` exactly when some argument of the namespace is not signed. -/
theorem c39_getSignedNS_none {reg q : Dict Str Str} {m : Msg} (h : Arrived reg q m) (signed : List Str) (ns : Ns)
    (hns : ∃ o, m.getArg ns [] = .ok o) :
    getSignedNS m signed ns = .ok none ↔
      ∃ key v K, m.getArg ns key = .ok (some v) ∧ m.getKey ns key = .ok (some K) ∧ K ∉ signed := by
  obtain ⟨o, ho⟩ := hns
  have hf : ∃ n, m.fixNS ns = .ok n := by
    rw [Msg.getArg] at ho
    obtain ⟨n, h1, -⟩ := bind_eq_ok.1 ho
    exact ⟨n, h1⟩
  obtain ⟨n, hf⟩ := hf
  have hk : ∀ k, m.getKey ns k = .ok (m.keyOf n k) := fun k => by rw [Msg.getKey, hf]; rfl
  have hs : ∀ k, ∃ b, isSigned m signed ns k = .ok b ∧ (b = true ↔ ∃ K, m.keyOf n k = some K ∧ K ∈ signed) := by
    intro k
    rw [isSigned, hk k]
    cases m.keyOf n k with
    | none => exact ⟨false, rfl, by simp⟩
    | some K => exact ⟨signed.contains K, rfl, by simp⟩
  have hargs : ∃ args, m.getArgs ns = .ok args := by rw [Msg.getArgs, hf]; exact ⟨_, rfl⟩
  obtain ⟨args, ha⟩ := hargs
  obtain ⟨hw, hg⟩ := c09_getArgs reg m (.parsed q m h.parsed) ns args ha
  have hall : ∀ l, ∃ b, allSigned m signed ns l = .ok b := by
    intro l
    induction l with
    | nil => exact ⟨true, rfl⟩
    | cons k r ih =>
      obtain ⟨b, hb, -⟩ := hs k
      rw [allSigned, hb]
      cases b with
      | false => exact ⟨false, rfl⟩
      | true => exact ih
  obtain ⟨b, hb⟩ := hall args.keys
  rw [getSignedNS, ha, ok_bind, hb, ok_bind]
  have hb2 := allSigned_ok hb
  constructor
  · intro hn
    have hbf : ¬ b = true := by intro hbt; rw [if_pos hbt] at hn; simp at hn
    rw [hb2] at hbf
    simp only [Classical.not_forall] at hbf
    obtain ⟨k, hkm, hkn⟩ := hbf
    rw [Dict.mem_keys_iff] at hkm
    obtain ⟨v, hkv⟩ := Option.isSome_iff_exists.1 hkm
    have hgv : m.getArg ns k = .ok (some v) := by rw [hg k, hkv]
    obtain ⟨K, hK, -⟩ := c39_key h hgv
    refine ⟨k, v, K, hgv, hK, fun hin => hkn ?_⟩
    obtain ⟨b', hb', hiff⟩ := hs k
    rw [hb']
    rw [hk k] at hK
    simp only [Except.ok.injEq] at hK
    exact congrArg _ (hiff.2 ⟨K, hK, hin⟩)
  · rintro ⟨k, v, K, h1, h2, h3⟩
    have : ¬ b = true := by
      rw [hb2]
      intro hx
      rw [hg k] at h1
      simp only [Except.ok.injEq] at h1
      have := hx k ((Dict.mem_keys_iff args k).2 (by rw [h1]; rfl))
      obtain ⟨b', hb', hiff⟩ := hs k
      rw [hb'] at this
      simp only [Except.ok.injEq] at this
      obtain ⟨K', hK', hin⟩ := hiff.1 this
      rw [hk k, hK'] at h2
      simp only [Except.ok.injEq, Option.some.injEq] at h2
      exact h3 (h2 ▸ hin)
    rw [if_neg this]; rfl

/-- C39: `extensionResponse` with `require_signed` gives the arguments of a namespace only if they are all signed. -/
theorem c39_extensionResponse_signed {reg q : Dict Str Str} {m : Msg} (h : Arrived reg q m) (names : List Str) (ns : Ns)
    (d : Dict Str Str) (hv : extensionResponse m (names.map (t!"openid." ++ ·)) ns true = .ok (some d)) :
    Dict.WF d ∧ (∀ key, m.getArg ns key = .ok (d.get? key)) ∧
    ∀ key v, d.get? key = some v → ∃ f ∈ names, m.getKey ns key = .ok (some (t!"openid." ++ f)) ∧
      q.get? (t!"openid." ++ f) = some v ∧ m.toPostArgs.get? (t!"openid." ++ f) = some v :=
  c39_getSignedNS h names ns d hv

/-- C39: without `require_signed` it gives whatever arrived in the namespace. -/
theorem c39_extensionResponse_all {reg q : Dict Str Str} {m : Msg} (h : Arrived reg q m) (signed : List Str) (ns : Ns)
    (o : Option (Dict Str Str)) (hv : extensionResponse m signed ns false = .ok o) :
    ∃ d, o = some d ∧ Dict.WF d ∧ ∀ key, m.getArg ns key = .ok (d.get? key) := by
  rw [extensionResponse, if_neg (by simp)] at hv
  obtain ⟨d, h1, h2⟩ := bind_eq_ok.1 hv
  simp at h2
  obtain ⟨hw, hg⟩ := c09_getArgs reg m (.parsed q m h.parsed) ns d h1
  exact ⟨d, h2.symm, hw, hg⟩

/-- C39: what a successful response hands out as signed is covered by the signature that was checked: by the MAC of the
    association, or by the question put to the provider. -/
theorem c39_covered {W : World} {C : Conf} {E : Consumer.Env} {s s' : UserSession} {q : Dict Str Str} {current : Str}
    {evs : List Ev} {e : Endpoint} {m : Msg} {signed : List Str} (h : Arrived W.reg q m)
    (hr : Runs (complete W C E s q current) evs (.ok (s', .ok (.success e m signed)))) (ns : Ns) (key v : Str)
    (hv : getSigned m signed ns key = .ok (some v)) :
    ∃ l f, arg q t!"signed" = some l ∧ f ∈ splitOn ',' l ∧ arg q f = some v ∧
      (f, v) ∈ (splitOn ',' l).map (fun f => (f, (m.toPostArgs.get? (t!"openid." ++ f)).getD [])) := by
  obtain ⟨l, h1, h2, -⟩ := (c37_success h.wf hr).signed
  rw [h2] at hv
  obtain ⟨-, f, hf, -, g1, g2⟩ := c39_getSigned h _ ns key v hv
  exact ⟨l, f, h1, hf, g1, List.mem_map.2 ⟨f, hf, by rw [g2]; rfl⟩⟩

/-! a response with a signed extension `a` and an extension `b` of which one argument is signed -/

def extQuery0 : Dict Str Str :=
  [(t!"openid.ns", OPENID2_NS), (t!"openid.ns.a", t!"http://a"), (t!"openid.ns.b", t!"http://b"), (t!"openid.a.x", t!"1"),
   (t!"openid.a.y", t!"2"), (t!"openid.b.x", t!"3"), (t!"openid.b.y", t!"4")]

def extNames0 : List Str := [t!"a.x", t!"a.y", t!"b.y"]

example : Arrived [] extQuery0 ((fromPostArgs [] extQuery0).toOption.getD {}) :=
  ⟨by decide, by decide +kernel, by simp [Dict.get?], by
    intro a u hu
    have := Dict.get?_mem _ _ _ hu
    simp [extQuery0, OPENID2_NS] at this
    rcases this with h | h <;> (rw [h.2]; decide)⟩

example : (fromPostArgs [] extQuery0).bind (fun m => getSignedNS m (extNames0.map (t!"openid." ++ ·)) (.uri t!"http://a")) =
    .ok (some [(t!"x", t!"1"), (t!"y", t!"2")]) := by decide +kernel
example : (fromPostArgs [] extQuery0).bind (fun m => getSignedNS m (extNames0.map (t!"openid." ++ ·)) (.uri t!"http://b")) =
    .ok none := by decide +kernel
example : (fromPostArgs [] extQuery0).bind (fun m => getSigned m (extNames0.map (t!"openid." ++ ·)) (.uri t!"http://b") t!"y") =
    .ok (some t!"4") := by decide +kernel
example : (fromPostArgs [] extQuery0).bind (fun m => extensionResponse m (extNames0.map (t!"openid." ++ ·))
    (.uri t!"http://b") true) = .ok none := by decide +kernel
example : ((fromPostArgs [] extQuery0).bind (fun m => extensionResponse m (extNames0.map (t!"openid." ++ ·))
    (.uri t!"http://b") false)).toOption.bind id ≠ none := by decide +kernel

end Props
