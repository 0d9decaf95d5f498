import Verif.Lemmas.Association
import Verif.Props.KVForm
import Verif.Props.Message
/-! # Properties of associations: C10, C11, C12, C13, C14 -/

namespace Props
open Py Message Association Cryptutil Spec

/-! ## C10 -/

/-- C10: `serialize` succeeds exactly for handles without newline or surrounding whitespace. -/
theorem c10_serialize_iff (a : Assoc) (ht : a.assocType ∈ allAssociationTypes) :
    (∃ s, a.serialize = .ok s) ↔ '\n' ∉ a.handle ∧ strip a.handle = a.handle := by
  rw [Assoc.serialize, KVForm.seqToKV_ok_iff]
  have hty : '\n' ∉ a.assocType ∧ strip a.assocType = a.assocType := by
    simp only [allAssociationTypes, List.mem_cons, List.not_mem_nil, or_false] at ht
    rcases ht with h | h <;> rw [h] <;> decide
  have hint : ∀ i : Int, '\n' ∉ intToStr i ∧ strip (intToStr i) = intToStr i := by
    intro i
    refine ⟨fun h => absurd (intToStr_noSpace i _ h) (by decide), strip_digits _ (intToStr_noSpace i)⟩
  have hsec : '\n' ∉ toBase64 a.secret ∧ strip (toBase64 a.secret) = toBase64 a.secret := by
    have hsp : ∀ c ∈ toBase64 a.secret, isSpace c = false := by
      intro c hc
      simp only [toBase64, List.dropLast_concat] at hc
      have : ∀ c ∈ Base64.alphabet, isSpace c = false := by decide
      rcases Base64.encode_alphabet _ c hc with h | rfl
      · exact this c h
      · decide
    exact ⟨fun h => absurd (hsp _ h) (by decide), strip_digits _ hsp⟩
  constructor
  · intro h
    have := h (t!"handle", a.handle) (by simp)
    exact ⟨this.2.2.1, (this.2.2.2 rfl).2⟩
  · rintro ⟨h1, h2⟩ p hp
    simp only [List.mem_cons, List.not_mem_nil, or_false] at hp
    rcases hp with rfl | rfl | rfl | rfl | rfl | rfl
    · decide
    · exact ⟨by simp, by simp, h1, fun _ => ⟨(by decide : strip t!"handle" = t!"handle"), h2⟩⟩
    · exact ⟨by simp, by simp, hsec.1, fun _ => ⟨(by decide : strip t!"secret" = t!"secret"), hsec.2⟩⟩
    · exact ⟨by simp, by simp, (hint _).1, fun _ => ⟨(by decide : strip t!"issued" = t!"issued"), (hint _).2⟩⟩
    · exact ⟨by simp, by simp, (hint _).1, fun _ => ⟨(by decide : strip t!"lifetime" = t!"lifetime"), (hint _).2⟩⟩
    · exact ⟨by simp, by simp, hty.1, fun _ => ⟨(by decide : strip t!"assoc_type" = t!"assoc_type"), hty.2⟩⟩

/-- C10: what `serialize` wrote, `deserialize` reads back, every field unchanged. -/
theorem c10_roundtrip (X : ExtraDigits) (a : Assoc) (ht : a.assocType ∈ allAssociationTypes) (s : Str)
    (h : a.serialize = .ok s) : deserialize X s = .ok a := by
  have hk := c01_strict_strict _ s h (by
    intro p hp
    simp only [List.mem_cons, List.not_mem_nil, or_false] at hp
    rcases hp with rfl | rfl | rfl | rfl | rfl | rfl <;> simp)
  rw [deserialize, hk]
  simp only [ok_bind]
  rw [if_neg (by simp [assocKeys])]
  simp only [List.map_cons, List.map_nil, fromValues]
  rw [if_neg (by decide), parseInt_intToStr, parseInt_intToStr]
  simp only [ok_bind]
  have hb : fromBase64 (toBase64 a.secret) = .ok a.secret := by
    simp only [toBase64, List.dropLast_concat, fromBase64, Base64.decode_encode]
  rw [hb]
  simp [Assoc.new, ht]

/-- C10: whatever `deserialize` accepts is strict key-value form with exactly the six keys in order,
    version 2, a known association type and readable numbers. -/
theorem c10_accepts (X : ExtraDigits) (s : Str) (a : Assoc) (h : deserialize X s = .ok a) :
    ∃ sec iss life, KVForm.kvToSeq true s = .ok
        [(t!"version", t!"2"), (t!"handle", a.handle), (t!"secret", sec), (t!"issued", iss),
         (t!"lifetime", life), (t!"assoc_type", a.assocType)] ∧
      parseInt X iss = .ok a.issued ∧ parseInt X life = .ok a.lifetime ∧
      fromBase64 sec = .ok a.secret ∧
      (a.assocType = t!"HMAC-SHA1" ∨ a.assocType = t!"HMAC-SHA256") := by
  rw [deserialize] at h
  obtain ⟨ps, h1, h⟩ := bind_eq_ok.1 h
  split at h
  · simp at h
  · next hk =>
    simp only [Decidable.not_not, assocKeys] at hk
    match ps, hk, h, h1 with
    | [p1, p2, p3, p4, p5, p6], hk, h, h1 =>
      obtain ⟨k1, v1⟩ := p1; obtain ⟨k2, v2⟩ := p2; obtain ⟨k3, v3⟩ := p3
      obtain ⟨k4, v4⟩ := p4; obtain ⟨k5, v5⟩ := p5; obtain ⟨k6, v6⟩ := p6
      simp only [List.map_cons, List.map_nil, List.cons.injEq, and_true] at hk
      obtain ⟨rfl, rfl, rfl, rfl, rfl, rfl⟩ := hk
      simp only [List.map_cons, List.map_nil, fromValues] at h
      split at h
      · simp at h
      · next hv =>
        simp only [Decidable.not_not] at hv
        subst hv
        obtain ⟨i, hi, h⟩ := bind_eq_ok.1 h
        obtain ⟨l, hl, h⟩ := bind_eq_ok.1 h
        obtain ⟨sec, hs, h⟩ := bind_eq_ok.1 h
        rw [Assoc.new] at h
        split at h
        · next ht =>
          simp at h; subst h
          refine ⟨v3, v4, v5, h1, hi, hl, hs, ?_⟩
          simp [allAssociationTypes] at ht
          exact ht.symm
        · simp at h
    | [], hk, _, _ => simp at hk
    | [_], hk, _, _ => simp at hk
    | [_, _], hk, _, _ => simp at hk
    | [_, _, _], hk, _, _ => simp at hk
    | [_, _, _, _], hk, _, _ => simp at hk
    | [_, _, _, _, _], hk, _, _ => simp at hk
    | _ :: _ :: _ :: _ :: _ :: _ :: _ :: _, hk, _, _ => simp at hk

/-- C10: `deserialize` never fails with anything but a ValueError (the stores rely on it). -/
theorem c10_errors (X : ExtraDigits) (s : Str) (e : PyErr) (h : deserialize X s = .error e) :
    e.isValueError = true := by
  rw [deserialize] at h
  rcases bind_eq_error.1 h with h | ⟨ps, -, h⟩
  · rw [KVForm.kvToSeq_error h]; rfl
  · split at h
    · simp at h; subst h; rfl
    · rw [fromValues.eq_def] at h
      split at h
      · split at h
        · simp at h; subst h; rfl
        · rcases bind_eq_error.1 h with h | ⟨i, -, h⟩
          · rw [parseInt_error _ _ _ h]; rfl
          · rcases bind_eq_error.1 h with h | ⟨l, -, h⟩
            · rw [parseInt_error _ _ _ h]; rfl
            · rcases bind_eq_error.1 h with h | ⟨l, -, h⟩
              · rw [Base64.decode_error _ _ h]; rfl
              · rw [Assoc.new] at h
                split at h <;> simp at h
                subst h; rfl
      · simp at h; subst h; rfl

def assoc0 : Assoc := ⟨t!"{HMAC-SHA1}{x}", [0, 255, 10], -5, 1209600, t!"HMAC-SHA1"⟩

example : assoc0.serialize = .ok
    t!"version:2\nhandle:{HMAC-SHA1}{x}\nsecret:AP8K\nissued:-5\nlifetime:1209600\nassoc_type:HMAC-SHA1\n" := by
  decide
example : deserialize (fun _ => none)
    t!"version:2\nhandle:h\nsecret:AP8K\nissued:-5\nlifetime:7\nassoc_type:HMAC-SHA1\n" =
    .ok ⟨t!"h", [0, 255, 10], -5, 7, t!"HMAC-SHA1"⟩ := by decide
example : deserialize (fun _ => none)
    t!"handle:h\nversion:2\nsecret:AP8K\nissued:-5\nlifetime:7\nassoc_type:HMAC-SHA1\n" =
    .error .valueError := by decide

/-! ## C11 -/

/-- C11: the remaining lifetime is never negative and is exactly the time left until
    `issued + lifetime`. -/
theorem c11_exact (a : Assoc) (now : Int) :
    0 ≤ a.getExpiresIn now ∧
    (now < a.issued + a.lifetime → a.getExpiresIn now = a.issued + a.lifetime - now) ∧
    (a.getExpiresIn now = 0 ↔ a.issued + a.lifetime ≤ now) := by
  simp only [Assoc.getExpiresIn]; omega

/-- C11: as time passes it never increases, and what is expired stays expired. -/
theorem c11_monotone (a : Assoc) (t u : Int) (h : t ≤ u) :
    a.getExpiresIn u ≤ a.getExpiresIn t ∧ (a.getExpiresIn t = 0 → a.getExpiresIn u = 0) := by
  simp only [Assoc.getExpiresIn]; omega

/-- C11: an association made by `fromExpiresIn` lasts that long from then on. -/
theorem c11_fromExpiresIn (now e : Int) (handle : Str) (secret : Bytes) (ty : Str) (a : Assoc)
    (h : Assoc.fromExpiresIn now e handle secret ty = .ok a) (he : 0 ≤ e) (later : Int) :
    a.getExpiresIn now = e ∧ (a.getExpiresIn later = 0 ↔ now + e ≤ later) := by
  rw [Assoc.fromExpiresIn, Assoc.new] at h
  split at h
  · simp at h; subst h; simp only [Assoc.getExpiresIn]; omega
  · simp at h

example : ∃ a, Assoc.fromExpiresIn 100 50 t!"h" [1] t!"HMAC-SHA1" = .ok a ∧ a.getExpiresIn 149 = 1 ∧
    a.getExpiresIn 150 = 0 := ⟨_, rfl, by decide, by decide⟩

/-! ## C12 -/

theorem sign_verify (H : Mac) (hH : ∀ t k x, H t k x ≠ []) (a : Assoc)
    (m m' : Msg) (hi : MInv m)
    (hsig : ∀ f v, m.toPostArgs.get? (t!"openid." ++ f) = some v → t!"sig" ∉ splitOn ',' f)
    (h : a.signMessage H m = .ok m') : a.checkMessageSignature H m' = .ok true := by
  obtain ⟨oid, m1, m2, sig, ho, -, -, -, h1, h2, h3, h4⟩ := signMessage_ok H a m m' hi h
  obtain ⟨oid1, ho1, n1, a1, i1, k1⟩ := setArg_openid m hi _ _ _ h1
  rw [ho] at ho1; simp at ho1; subst ho1
  obtain ⟨oid2, ho2, n2, a2, i2, k2⟩ := setArg_openid m1 i1 _ _ _ h2
  have hoid2 : oid2 = oid := by
    have : m1.getOpenIDNamespace = m.getOpenIDNamespace := by simp [Msg.getOpenIDNamespace, n1]
    rw [this, ho] at ho2; simp at ho2; exact ho2.symm
  subst hoid2
  obtain ⟨oid3, ho3, n3, a3, i3, k3⟩ := setArg_openid m2 i2 _ _ _ h4
  have hoid3 : oid3 = oid2 := by
    have : m2.getOpenIDNamespace = m1.getOpenIDNamespace := by simp [Msg.getOpenIDNamespace, n2]
    rw [this, ho2] at ho3; simp at ho3; exact ho3.symm
  subst hoid3
  obtain ⟨s, kv, g1, g2, g3, g4, g5⟩ := getMessageSignature_ok H a m2 sig h3
  -- the signed list of the result
  have hs : s = signedList m1 := by
    have : m2.getArg .openid t!"signed" = .ok (some (signedList m1)) := by
      rw [Msg.getArg, Msg.fixNS, ho3]
      simp [a2, Dict.get?_set]
    rw [this] at g1; simp at g1; exact g1.symm
  have ho' : m'.getOpenIDNamespace = some oid3 := by
    have : m'.getOpenIDNamespace = m2.getOpenIDNamespace := by simp [Msg.getOpenIDNamespace, n3]
    rw [this, ho3]
  have hsg : m'.getArg .openid t!"signed" = .ok (some s) := by
    rw [Msg.getArg, Msg.fixNS, ho']
    simp only [ok_bind, pure_eq_ok, Except.ok.injEq, a3, a2, Dict.get?_set, hs]
    simp
  have hsgn : m'.getArg .openid t!"sig" = .ok (some sig) := by
    rw [Msg.getArg, Msg.fixNS, ho']
    simp [a3, Dict.get?_set]
  -- `sig` is not a signed field
  have hnot : t!"sig" ∉ splitOn ',' s := by
    rw [hs, mem_signedList]
    rintro (hc | ⟨k, hk, r, rfl, hr⟩)
    · simp at hc
    · rw [Dict.mem_keys_iff] at hk
      by_cases hka : r = t!"assoc_handle"
      · subst hka; revert hr; decide
      · rw [toPostArgs_set m m1 _ _ _ _ n1 a1 (by rw [k1]; simpa using fun e => hka e.symm)] at hk
        obtain ⟨v, hv⟩ := Option.isSome_iff_exists.1 hk
        exact hsig r v hv hr
  have hpairs : pairsOf m'.toPostArgs s = pairsOf m2.toPostArgs s := by
    rw [pairsOf, pairsOf]
    apply List.map_congr_left
    intro f hf
    have : f ≠ t!"sig" := by rintro rfl; exact hnot hf
    rw [toPostArgs_set m2 m' _ _ _ _ n3 a3 (by rw [k3]; simpa using fun e => this e.symm)]
  have hcalc : a.getMessageSignature H m' = .ok sig := by
    rw [Assoc.getMessageSignature, makePairs_of m' s hsg g2, hpairs]
    simp only [ok_bind, Assoc.sign, g3]
    simp [g4, g5]
  rw [Assoc.checkMessageSignature, hsgn]
  simp only [ok_bind]
  have hne : sig ≠ [] := by rw [g5]; exact toBase64_ne_nil _ (hH _ _ _)
  cases hc : sig with
  | nil => exact absurd hc hne
  | cons c r =>
    simp only
    rw [hcalc]
    simp [hc]

/-- C12: a message signed with an association verifies with it.  The MAC is any function that never
    returns the empty text.  Field names are to be ones that the comma separated list can name: no
    `openid.*` field of the message is called `sig` or contains a comma before or after such a part. -/
theorem c12_sign_verify (reg : Dict Str Str) (H : Mac) (hH : ∀ t k x, H t k x ≠ []) (a : Assoc)
    (m m' : Msg) (hm : Built reg m)
    (hsig : ∀ f v, m.toPostArgs.get? (t!"openid." ++ f) = some v → t!"sig" ∉ splitOn ',' f)
    (h : a.signMessage H m = .ok m') : a.checkMessageSignature H m' = .ok true :=
  sign_verify H hH a m m' (minv_built reg m hm) hsig h

theorem sign_can (H : Mac) (a : Assoc) (ha : a.assocType ∈ allAssociationTypes)
    (hh : '\n' ∉ a.handle) (m : Msg) (hi : MInv m)
    (h1 : m.getArg .openid t!"sig" = .ok none) (h2 : m.getArg .openid t!"signed" = .ok none)
    (h3 : m.getArg .openid t!"assoc_handle" = .ok none ∨ m.getArg .openid t!"assoc_handle" = .ok (some a.handle))
    (hkv : ∀ f v, m.toPostArgs.get? (t!"openid." ++ f) = some v → '\n' ∉ f ∧ ':' ∉ f ∧ '\n' ∉ v) :
    ∃ m', a.signMessage H m = .ok m' := by
  obtain ⟨oid, ho⟩ : ∃ oid, m.getOpenIDNamespace = some oid := by
    cases ho : m.getOpenIDNamespace with
    | some o => exact ⟨o, rfl⟩
    | none => rw [Msg.getArg, Msg.fixNS, ho] at h1; simp at h1
  have hset : ∀ (m : Msg), MInv m → m.getOpenIDNamespace = some oid → ∀ k v, ∃ m', m.setArg .openid k v = .ok m' := by
    intro m hi ho k v
    obtain ⟨m', e, -⟩ := setArg_ok m hi .openid k v (.uri oid) (by simp [Msg.fixNS, ho])
    exact ⟨m', e⟩
  have hkey : ∀ k, m.getArg .openid k = .ok none → m.hasKey .openid k = .ok false := by
    intro k hk
    rw [Msg.getArg, Msg.fixNS, ho] at hk
    simp at hk
    simp [Msg.hasKey, Msg.fixNS, ho, Dict.has, hk]
  obtain ⟨m1, e1⟩ := hset m hi ho t!"assoc_handle" a.handle
  obtain ⟨oid1, ho1, n1, a1, i1, k1⟩ := setArg_openid m hi _ _ _ e1
  have ho1' : m1.getOpenIDNamespace = some oid := by
    rw [← ho]; simp [Msg.getOpenIDNamespace, n1]
  obtain ⟨m2, e2⟩ := hset m1 i1 ho1' t!"signed" (signedList m1)
  obtain ⟨oid2, ho2, n2, a2, i2, k2⟩ := setArg_openid m1 i1 _ _ _ e2
  rw [ho1'] at ho2; simp at ho2; subst ho2
  have ho2' : m2.getOpenIDNamespace = some oid := by
    rw [← ho1']; simp [Msg.getOpenIDNamespace, n2]
  have hsigned : m2.getArg .openid t!"signed" = .ok (some (signedList m1)) := by
    rw [Msg.getArg, Msg.fixNS, ho2']
    simp [a2, Dict.get?_set]
  -- the field names
  have hfld : ∀ r v, m1.toPostArgs.get? (t!"openid." ++ r) = some v → '\n' ∉ r ∧ ':' ∉ r := by
    intro r v hv
    by_cases hr : r = t!"assoc_handle"
    · subst hr; exact ⟨by decide, by decide⟩
    · rw [toPostArgs_set m m1 _ _ _ _ n1 a1 (by rw [k1]; simpa using fun e => hr e.symm)] at hv
      exact ⟨(hkv r v hv).1, (hkv r v hv).2.1⟩
  have hname : ∀ f ∈ splitOn ',' (signedList m1), '\n' ∉ f ∧ ':' ∉ f := by
    intro f hf
    rw [mem_signedList] at hf
    rcases hf with rfl | ⟨k, hk, r, rfl, hf⟩
    · exact ⟨by decide, by decide⟩
    · rw [Dict.mem_keys_iff] at hk
      obtain ⟨v, hv⟩ := Option.isSome_iff_exists.1 hk
      obtain ⟨g1, g2⟩ := hfld r v hv
      exact ⟨fun h => g1 (mem_splitOn_sub _ _ _ hf _ h), fun h => g2 (mem_splitOn_sub _ _ _ hf _ h)⟩
  have hlist : '\n' ∉ signedList m1 := by
    intro hc
    rw [← join_splitOn ',' (signedList m1)] at hc
    rcases mem_join _ _ _ hc with h | ⟨x, hx, h⟩
    · simp at h
    · exact (hname x hx).1 h
  have hval : ∀ f, '\n' ∉ (m2.toPostArgs.get? (t!"openid." ++ f)).getD [] := by
    intro f
    cases hw : m2.toPostArgs.get? (t!"openid." ++ f) with
    | none => simp
    | some w =>
      simp only [Option.getD_some]
      rcases toPostArgs_set_mem m1 m2 _ _ _ _ _ n2 a2 hw with rfl | hw
      · exact hlist
      · rcases toPostArgs_set_mem m m1 _ _ _ _ _ n1 a1 hw with rfl | hw
        · exact hh
        · exact (hkv f w hw).2.2
  obtain ⟨kv, e3⟩ : ∃ kv, KVForm.seqToKV false (pairsOf m2.toPostArgs (signedList m1)) = .ok kv := by
    rw [KVForm.seqToKV_ok_iff]
    intro p hp
    obtain ⟨f, hf, rfl⟩ := List.mem_map.1 hp
    exact ⟨(hname f hf).1, (hname f hf).2, hval f, by simp⟩
  obtain ⟨sig, e4⟩ : ∃ sig, a.getMessageSignature H m2 = .ok sig := by
    rw [Assoc.getMessageSignature, makePairs_of m2 _ hsigned (signedList_ne_nil m1)]
    simp only [ok_bind, Assoc.sign, e3]
    simp [ha]
  obtain ⟨m3, e5⟩ := hset m2 i2 ho2' t!"sig" sig
  refine ⟨m3, ?_⟩
  rw [Assoc.signMessage, hkey _ h1, hkey _ h2]
  simp only [ok_bind, Bool.or_self, Bool.false_eq_true, if_false]
  have hoh : ∀ ex, m.getArg .openid t!"assoc_handle" = .ok ex → a.otherHandle ex = false := by
    intro ex hex
    rcases h3 with h3 | h3 <;> rw [h3] at hex <;> simp at hex <;> subst hex <;> simp [Assoc.otherHandle]
  have : ∃ ex, m.getArg .openid t!"assoc_handle" = .ok ex := by rcases h3 with h3 | h3 <;> exact ⟨_, h3⟩
  obtain ⟨ex, hex⟩ := this
  rw [hex]
  simp only [ok_bind, hoh ex hex, Bool.false_eq_true, if_false, e1, e2, e4, e5]

/-- C12: signing succeeds for every unsigned message whose handle is absent or the association's own and
    whose `openid.*` names and values fit key-value form. -/
theorem c12_signs (reg : Dict Str Str) (H : Mac) (a : Assoc) (ha : a.assocType ∈ allAssociationTypes)
    (hh : '\n' ∉ a.handle) (m : Msg) (hm : Built reg m)
    (h1 : m.getArg .openid t!"sig" = .ok none) (h2 : m.getArg .openid t!"signed" = .ok none)
    (h3 : m.getArg .openid t!"assoc_handle" = .ok none ∨ m.getArg .openid t!"assoc_handle" = .ok (some a.handle))
    (hkv : ∀ f v, m.toPostArgs.get? (t!"openid." ++ f) = some v → '\n' ∉ f ∧ ':' ∉ f ∧ '\n' ∉ v) :
    ∃ m', a.signMessage H m = .ok m' :=
  sign_can H a ha hh m (minv_built reg m hm) h1 h2 h3 hkv

theorem sign_covers (H : Mac) (a : Assoc) (m m' : Msg) (hi : MInv m)
    (h : a.signMessage H m = .ok m') :
    ∃ signed, m'.getArg .openid t!"signed" = .ok (some signed) ∧
      m'.getArg .openid t!"assoc_handle" = .ok (some a.handle) ∧
      t!"signed" ∈ splitOn ',' signed ∧ t!"assoc_handle" ∈ splitOn ',' signed ∧
      ∀ f v, m'.toPostArgs.get? (t!"openid." ++ f) = some v → ',' ∉ f → f ≠ t!"sig" →
        f ∈ splitOn ',' signed := by
  obtain ⟨oid, m1, m2, sig, ho, -, -, -, h1, h2, h3, h4⟩ := signMessage_ok H a m m' hi h
  obtain ⟨oid1, ho1, n1, a1, i1, k1⟩ := setArg_openid m hi _ _ _ h1
  rw [ho] at ho1; simp at ho1; subst ho1
  obtain ⟨oid2, ho2, n2, a2, i2, k2⟩ := setArg_openid m1 i1 _ _ _ h2
  have hoid2 : oid2 = oid := by
    have : m1.getOpenIDNamespace = m.getOpenIDNamespace := by simp [Msg.getOpenIDNamespace, n1]
    rw [this, ho] at ho2; simp at ho2; exact ho2.symm
  subst hoid2
  obtain ⟨oid3, ho3, n3, a3, i3, k3⟩ := setArg_openid m2 i2 _ _ _ h4
  have hoid3 : oid3 = oid2 := by
    have : m2.getOpenIDNamespace = m1.getOpenIDNamespace := by simp [Msg.getOpenIDNamespace, n2]
    rw [this, ho2] at ho3; simp at ho3; exact ho3.symm
  subst hoid3
  have ho' : m'.getOpenIDNamespace = some oid3 := by
    have : m'.getOpenIDNamespace = m2.getOpenIDNamespace := by simp [Msg.getOpenIDNamespace, n3]
    rw [this, ho3]
  have hah : t!"openid.assoc_handle" ∈ Dict.keys m1.toPostArgs := by
    have hin : t!"openid.assoc_handle" ∈ Dict.keys (nsPairs m1.namespaces ++ argPairs m1) := by
      have hmem : ((NsKey.uri oid3, t!"assoc_handle"), a.handle) ∈ m1.args := by
        rw [a1]; exact Dict.get?_mem _ _ _ (by simp [Dict.get?_set])
      refine List.mem_map.2 ⟨(t!"openid.assoc_handle", a.handle), List.mem_append_right _ ?_, rfl⟩
      refine List.mem_filterMap.2 ⟨_, hmem, ?_⟩
      have : m1.keyOf (.uri oid3) t!"assoc_handle" = some t!"openid.assoc_handle" := by
        have : m1.keyOf (.uri oid3) t!"assoc_handle" = m.keyOf (.uri oid3) t!"assoc_handle" := by
          simp [Msg.keyOf, n1]
        rw [this, k1]; rfl
      simp only [this, Option.map_some]
    rw [toPostArgs_eq, Dict.mem_keys_iff, Dict.ofPairs, Dict.get?_update]
    have hr : (Dict.get? (nsPairs m1.namespaces ++ argPairs m1).reverse t!"openid.assoc_handle").isSome = true := by
      rw [← Dict.mem_keys_iff, Dict.keys, List.map_reverse, List.mem_reverse]; exact hin
    obtain ⟨v, hv⟩ := Option.isSome_iff_exists.1 hr
    rw [hv]; rfl
  refine ⟨signedList m1, ?_, ?_, (mem_signedList m1 _).2 (.inl rfl),
    (mem_signedList m1 _).2 (.inr ⟨_, hah, t!"assoc_handle", rfl, by decide⟩), ?_⟩
  · rw [Msg.getArg, Msg.fixNS, ho']
    simp only [ok_bind, pure_eq_ok, Except.ok.injEq, a3, a2, Dict.get?_set]
    simp
  · rw [Msg.getArg, Msg.fixNS, ho']
    simp only [ok_bind, pure_eq_ok, Except.ok.injEq, a3, a2, a1, Dict.get?_set]
    simp
  · intro f v hf hc hs
    rw [toPostArgs_set m2 m' _ _ _ _ n3 a3 (by rw [k3]; simpa using fun e => hs e.symm)] at hf
    rw [mem_signedList]
    by_cases hsd : f = t!"signed"
    · exact .inl hsd
    · right
      rw [toPostArgs_set m1 m2 _ _ _ _ n2 a2 (by rw [k2]; simpa using fun e => hsd e.symm)] at hf
      refine ⟨t!"openid." ++ f, by rw [Dict.mem_keys_iff, hf]; rfl, f, rfl, ?_⟩
      rw [splitOn_not_mem _ _ hc]; simp

/-- C12: the signed list names every `openid.*` field of the signed message except `sig` (for names
    without a comma), in particular `signed` itself and the association handle. -/
theorem c12_covers (reg : Dict Str Str) (H : Mac) (a : Assoc) (m m' : Msg) (hm : Built reg m)
    (h : a.signMessage H m = .ok m') :
    ∃ signed, m'.getArg .openid t!"signed" = .ok (some signed) ∧
      m'.getArg .openid t!"assoc_handle" = .ok (some a.handle) ∧
      t!"signed" ∈ splitOn ',' signed ∧ t!"assoc_handle" ∈ splitOn ',' signed ∧
      ∀ f v, m'.toPostArgs.get? (t!"openid." ++ f) = some v → ',' ∉ f → f ≠ t!"sig" →
        f ∈ splitOn ',' signed :=
  sign_covers H a m m' (minv_built reg m hm) h

theorem sign_keeps (H : Mac) (a : Assoc) (m m' : Msg) (hi : MInv m)
    (h : a.signMessage H m = .ok m') :
    m'.getOpenIDNamespace = m.getOpenIDNamespace ∧
    ∀ ns key, (resolve m.getOpenIDNamespace ns ≠ resolve m.getOpenIDNamespace .openid ∨
        key ∉ [t!"assoc_handle", t!"signed", t!"sig"]) → m'.getArg ns key = m.getArg ns key := by
  obtain ⟨oid, m1, m2, sig, ho, -, -, -, h1, h2, h3, h4⟩ := signMessage_ok H a m m' hi h
  obtain ⟨oid1, ho1, n1, a1, i1, k1⟩ := setArg_openid m hi _ _ _ h1
  rw [ho] at ho1; simp at ho1; subst ho1
  obtain ⟨oid2, ho2, n2, a2, i2, k2⟩ := setArg_openid m1 i1 _ _ _ h2
  have hoid2 : oid2 = oid := by
    have : m1.getOpenIDNamespace = m.getOpenIDNamespace := by simp [Msg.getOpenIDNamespace, n1]
    rw [this, ho] at ho2; simp at ho2; exact ho2.symm
  subst hoid2
  obtain ⟨oid3, ho3, n3, a3, i3, k3⟩ := setArg_openid m2 i2 _ _ _ h4
  have hoid3 : oid3 = oid2 := by
    have : m2.getOpenIDNamespace = m1.getOpenIDNamespace := by simp [Msg.getOpenIDNamespace, n2]
    rw [this, ho2] at ho3; simp at ho3; exact ho3.symm
  subst hoid3
  have hns : m'.namespaces = m.namespaces := by rw [n3, n2, n1]
  refine ⟨by simp [Msg.getOpenIDNamespace, hns], ?_⟩
  intro ns key hne
  rw [Msg.getArg, Msg.getArg, fixNS_same m m' (by rw [hns])]
  cases hf : m.fixNS ns with
  | error e => rfl
  | ok n =>
    simp only [ok_bind, pure_eq_ok, Except.ok.injEq, a3, a2, a1, Dict.get?_set]
    have hn : n ≠ .uri oid3 ∨ key ∉ [t!"assoc_handle", t!"signed", t!"sig"] := by
      rcases hne with hne | hne
      · left
        rintro rfl
        apply hne
        rw [resolve_fixNS, resolve_fixNS, hf]
        simp [Msg.fixNS, ho]
      · exact .inr hne
    have hk : ∀ k ∈ [t!"assoc_handle", t!"signed", t!"sig"], ¬ ((NsKey.uri oid3, k) = (n, key)) := by
      intro k hk he
      simp at he
      rcases hn with hn | hn
      · exact hn he.1.symm
      · rw [← he.2] at hn; exact hn hk
    rw [if_neg (hk _ (by simp)), if_neg (hk _ (by simp)), if_neg (hk _ (by simp))]

/-- C12: signing changes nothing but `assoc_handle`, `signed` and `sig` (the original message is a
    separate object), and the OpenID namespace stays. -/
theorem c12_keeps (reg : Dict Str Str) (H : Mac) (a : Assoc) (m m' : Msg) (hm : Built reg m)
    (h : a.signMessage H m = .ok m') :
    m'.getOpenIDNamespace = m.getOpenIDNamespace ∧
    ∀ ns key, (resolve m.getOpenIDNamespace ns ≠ resolve m.getOpenIDNamespace .openid ∨
        key ∉ [t!"assoc_handle", t!"signed", t!"sig"]) → m'.getArg ns key = m.getArg ns key :=
  sign_keeps H a m m' (minv_built reg m hm) h

/-- C12: a message that already carries a signature or a signed list, or names another association, is
    refused. -/
theorem c12_refuses (H : Mac) (a : Assoc) (m : Msg) (v : Str)
    (h : m.getArg .openid t!"sig" = .ok (some v) ∨ m.getArg .openid t!"signed" = .ok (some v) ∨
      (m.getArg .openid t!"assoc_handle" = .ok (some v) ∧ v ≠ [] ∧ v ≠ a.handle)) :
    ∀ m', a.signMessage H m ≠ .ok m' := by
  intro m' hs
  rw [Assoc.signMessage] at hs
  obtain ⟨b1, h1, hs⟩ := bind_eq_ok.1 hs
  obtain ⟨b2, h2, hs⟩ := bind_eq_ok.1 hs
  have hk : ∀ key v b, m.getArg .openid key = .ok (some v) → m.hasKey .openid key = .ok b → b = true := by
    intro key v b hg hb
    rw [Msg.getArg] at hg
    obtain ⟨n, hn, hg⟩ := bind_eq_ok.1 hg
    rw [Msg.hasKey, hn] at hb
    simp at hg hb
    rw [← hb, Dict.has, hg]; rfl
  split at hs
  · simp at hs
  · next hb =>
    simp at hb
    rcases h with h | h | ⟨h, hv1, hv2⟩
    · have := hk _ v b1 h h1; rw [hb.1] at this; simp at this
    · have := hk _ v b2 h h2; rw [hb.2] at this; simp at this
    · rw [h] at hs
      simp only [ok_bind] at hs
      rw [if_pos (by simp [Assoc.otherHandle, hv1, hv2])] at hs
      simp at hs

/-- a stand-in MAC for the examples: any non-empty function of its inputs will do -/
def mac0 : Mac := fun t k x => UInt8.ofNat t.length :: (k ++ x)

def signSample : Msg :=
  ⟨[((.uri OPENID2_NS, t!"mode"), t!"id_res"), ((.uri t!"http://e"), t!"k") |> fun p => (p, t!"v"),
    ((.bare, t!"other"), t!"w")],
   ⟨[(.null, OPENID2_NS), (.name t!"e", t!"http://e")], [(OPENID2_NS, .null), (t!"http://e", .name t!"e")], []⟩⟩

example : fromPostArgs libReg [(t!"openid.ns", OPENID2_NS), (t!"openid.ns.e", t!"http://e"),
    (t!"openid.mode", t!"id_res"), (t!"openid.e.k", t!"v"), (t!"other", t!"w")] = .ok signSample := by decide

example : ∃ m', assoc0.signMessage mac0 signSample = .ok m' ∧
    m'.getArg .openid t!"signed" = .ok (some t!"assoc_handle,e.k,mode,ns,ns.e,signed") := by
  refine ⟨_, rfl, by decide +kernel⟩

/-- C12, outside the condition: a field whose name contains `,sig` makes the freshly signed message
    fail its own check. -/
theorem c12_comma_breaks :
    ∃ m m', fromPostArgs libReg [(t!"openid.mode", t!"id_res"), (t!"openid.x,sig", t!"v")] = .ok m ∧
      assoc0.signMessage mac0 m = .ok m' ∧ assoc0.checkMessageSignature mac0 m' = .ok false :=
  ⟨_, _, rfl, rfl, by decide +kernel⟩

/-- C12, outside the condition: so does an argument without a namespace called `openid.sig`. -/
theorem c12_bare_sig_breaks :
    ∃ m m1 m', fromPostArgs libReg [(t!"openid.mode", t!"id_res")] = .ok m ∧
      m.setArg .bare t!"openid.sig" t!"v" = .ok m1 ∧
      assoc0.signMessage mac0 m1 = .ok m' ∧ assoc0.checkMessageSignature mac0 m' = .ok false :=
  ⟨_, _, _, rfl, rfl, rfl, by decide +kernel⟩

/-! ## C13 -/

/-- C13: two messages that carry the same signature and both verify under one association have the same
    signed list and the same values for every field in it (absent counting as empty) - or the MAC
    collides on two different texts. -/
theorem c13_tamper (H : Mac) (a : Assoc) (m₁ m₂ : Msg) (sig signed₁ signed₂ : Str)
    (h₁ : a.checkMessageSignature H m₁ = .ok true) (h₂ : a.checkMessageSignature H m₂ = .ok true)
    (hs₁ : m₁.getArg .openid t!"sig" = .ok (some sig)) (hs₂ : m₂.getArg .openid t!"sig" = .ok (some sig))
    (hd₁ : m₁.getArg .openid t!"signed" = .ok (some signed₁))
    (hd₂ : m₂.getArg .openid t!"signed" = .ok (some signed₂)) :
    (∃ x y : Bytes, x ≠ y ∧ H a.assocType a.secret x = H a.assocType a.secret y) ∨
    (signed₁ = signed₂ ∧ ∀ f ∈ splitOn ',' signed₁,
      (m₁.toPostArgs.get? (t!"openid." ++ f)).getD [] = (m₂.toPostArgs.get? (t!"openid." ++ f)).getD []) := by
  have key : ∀ (m : Msg) (signed : Str), a.checkMessageSignature H m = .ok true →
      m.getArg .openid t!"sig" = .ok (some sig) → m.getArg .openid t!"signed" = .ok (some signed) →
      ∃ kv, KVForm.seqToKV false (pairsOf m.toPostArgs signed) = .ok kv ∧
        sig = toBase64 (H a.assocType a.secret (Utf8.encode kv)) := by
    intro m signed h hs hd
    rw [Assoc.checkMessageSignature, hs] at h
    simp only [ok_bind] at h
    split at h
    · simp at h
    · simp at h
    · next s hne heq =>
      simp at heq; subst heq
      obtain ⟨c, hc, h⟩ := bind_eq_ok.1 h
      simp only [pure_eq_ok, Except.ok.injEq, decide_eq_true_eq] at h
      have := Utf8.encode_inj _ _ h
      subst this
      obtain ⟨s, kv, g1, g2, g3, g4, g5⟩ := getMessageSignature_ok H a m c hc
      rw [hd] at g1; simp at g1; subst g1
      exact ⟨kv, g3, g5⟩
  obtain ⟨kv₁, e₁, f₁⟩ := key m₁ signed₁ h₁ hs₁ hd₁
  obtain ⟨kv₂, e₂, f₂⟩ := key m₂ signed₂ h₂ hs₂ hd₂
  have hmac := toBase64_inj _ _ (f₁.symm.trans f₂)
  by_cases hkv : kv₁ = kv₂
  · right
    subst hkv
    have hp := c02_injective false false _ _ _ e₁ e₂
    have hfst := congrArg (List.map Prod.fst) hp
    simp only [pairsOf, List.map_map, Function.comp_def, List.map_id'] at hfst
    have hsd : signed₁ = signed₂ := by
      rw [← join_splitOn ',' signed₁, ← join_splitOn ',' signed₂, hfst]
    refine ⟨hsd, ?_⟩
    subst hsd
    intro f hf
    have := List.map_inj_left.1 hp f hf
    simpa using this
  · left
    exact ⟨_, _, fun h => hkv (Utf8.encode_inj _ _ h), hmac⟩

/-- C13: only a signature computed with the association's own secret over exactly the signed fields, in
    the order of the signed list, is accepted. -/
theorem c13_accepts_iff (H : Mac) (a : Assoc) (m : Msg) (sig signed : Str)
    (hs : m.getArg .openid t!"sig" = .ok (some sig)) (hne : sig ≠ [])
    (hd : m.getArg .openid t!"signed" = .ok (some signed)) (hdn : signed ≠ []) :
    a.checkMessageSignature H m = .ok true ↔
      a.assocType ∈ allAssociationTypes ∧
      ∃ kv, KVForm.seqToKV false ((splitOn ',' signed).map fun f =>
          (f, (m.toPostArgs.get? (t!"openid." ++ f)).getD [])) = .ok kv ∧
        sig = toBase64 (H a.assocType a.secret (Utf8.encode kv)) := by
  constructor
  · intro h
    rw [Assoc.checkMessageSignature, hs] at h
    cases hc : sig with
    | nil => exact absurd hc hne
    | cons x r =>
      rw [hc] at h
      simp only [ok_bind] at h
      obtain ⟨c, hc', h⟩ := bind_eq_ok.1 h
      simp only [pure_eq_ok, Except.ok.injEq, decide_eq_true_eq] at h
      have := Utf8.encode_inj _ _ h
      subst this
      obtain ⟨s, kv, g1, g2, g3, g4, g5⟩ := getMessageSignature_ok H a m _ hc'
      rw [hd] at g1; simp at g1; subst g1
      exact ⟨g4, kv, g3, g5⟩
  · rintro ⟨ht, kv, e1, e2⟩
    rw [Assoc.checkMessageSignature, hs]
    simp only [ok_bind]
    have hcalc : a.getMessageSignature H m = .ok sig := by
      rw [Assoc.getMessageSignature, makePairs_of m signed hd hdn]
      simp only [ok_bind, Assoc.sign, pairsOf, e1]
      simp [ht, e2]
    cases hc : sig with
    | nil => exact absurd hc hne
    | cons c r => rw [hc] at hcalc; simp [hcalc]

example : ∃ m', assoc0.signMessage mac0 signSample = .ok m' ∧
    assoc0.checkMessageSignature mac0 m' = .ok true ∧
    (m'.setArg .openid t!"mode" t!"cancel").bind (assoc0.checkMessageSignature mac0) = .ok false := by
  refine ⟨_, rfl, by decide +kernel, by decide +kernel⟩

/-! ## C14 -/

/-- configuration calls -/
inductive NegOp where
  | setTypes (types : List (Str × Str))
  | add (assocType : Str) (sessionType : Option Str)

def negStep (n : Negotiator) : NegOp → Negotiator
  | .setTypes ts => (Negotiator.setAllowedTypes ts).toOption.getD n
  | .add a s => (n.addAllowedType a s).toOption.getD n

/-- the combinations OpenID defines -/
abbrev ValidPair (p : Str × Str) : Prop :=
  p ∈ [(t!"HMAC-SHA256", t!"DH-SHA256"), (t!"HMAC-SHA256", t!"no-encryption"),
       (t!"HMAC-SHA1", t!"DH-SHA1"), (t!"HMAC-SHA1", t!"no-encryption")]

/-- the pairs a configuration call asks for -/
def NegOp.asks : NegOp → List (Str × Str)
  | .setTypes ts => ts
  | .add a (some s) => [(a, s)]
  | .add a none => [(a, if a = t!"HMAC-SHA256" then t!"DH-SHA256" else t!"DH-SHA1"), (a, t!"no-encryption")]

theorem sessionTypeOk_iff (a s : Str) : sessionTypeOk a s = true ↔ ValidPair (a, s) := by
  simp only [sessionTypeOk, getSessionTypes, ValidPair]
  split
  · next h => subst h; simp
  · split
    · next h => subst h; simp
    · next h1 h2 => simp [h1, h2]

/-- the abstract policy: what each call leaves -/
def policyStep (n : List (Str × Str)) (op : NegOp) : List (Str × Str) :=
  if ∀ p ∈ op.asks, ValidPair p then
    match op with
    | .setTypes ts => ts
    | .add _ _ => n ++ op.asks
  else n

theorem negStep_policy (n : Negotiator) (op : NegOp) : negStep n op = policyStep n op := by
  cases op with
  | setTypes ts =>
    simp only [negStep, Negotiator.setAllowedTypes, policyStep]
    by_cases h : ∀ p ∈ (NegOp.setTypes ts).asks, ValidPair p
    · rw [if_pos h, if_pos]
      · rfl
      · simp only [List.all_eq_true, sessionTypeOk_iff]; exact h
    · rw [if_neg h, if_neg]
      · rfl
      · simp only [List.all_eq_true, sessionTypeOk_iff]; exact h
  | add a s =>
    cases s with
    | some s =>
      simp only [negStep, Negotiator.addAllowedType, policyStep]
      by_cases h : ValidPair (a, s)
      · rw [if_pos ((sessionTypeOk_iff a s).2 h), if_pos]
        · rfl
        · intro p hp; simp [NegOp.asks] at hp; subst hp; exact h
      · rw [if_neg (fun h' => h ((sessionTypeOk_iff a s).1 h')), if_neg]
        · rfl
        · intro h'; exact h (h' _ (by simp [NegOp.asks]))
    | none =>
      simp only [negStep, Negotiator.addAllowedType, policyStep]
      by_cases h1 : a = t!"HMAC-SHA256"
      · subst h1
        rw [if_neg (by simp [getSessionTypes]), if_pos]
        · simp [getSessionTypes, Except.toOption, NegOp.asks]
        · intro p hp; simp [NegOp.asks] at hp; rcases hp with rfl | rfl <;> simp [ValidPair]
      · by_cases h2 : a = t!"HMAC-SHA1"
        · subst h2
          rw [if_neg (by simp [getSessionTypes]), if_pos]
          · simp [getSessionTypes, Except.toOption, NegOp.asks]
          · intro p hp; simp [NegOp.asks] at hp; rcases hp with rfl | rfl <;> simp [ValidPair]
        · rw [if_pos (by simp [getSessionTypes, h1, h2]), if_neg]
          · rfl
          · intro h
            have := h (a, t!"no-encryption") (by simp [NegOp.asks])
            simp [ValidPair, h1, h2] at this

/-- C14: whatever configuration calls were made, failing ones included, the policy is exactly the list
    the valid calls describe: a call with an invalid pair changes nothing, not even partly. -/
theorem c14_policy (ops : List NegOp) (start : List (Str × Str)) :
    ops.foldl negStep start = ops.foldl policyStep start := by
  induction ops generalizing start with
  | nil => rfl
  | cons op r ih => rw [List.foldl_cons, List.foldl_cons, negStep_policy, ih]

/-- C14: from any valid configuration, `isAllowed` holds exactly for the listed pairs, these are all
    valid combinations that some call (or the start) asked for, and `getAllowedType` is the first. -/
theorem c14_allowed (ops : List NegOp) (start : List (Str × Str)) (hs : ∀ p ∈ start, ValidPair p) :
    let n : Negotiator := ops.foldl negStep start
    (∀ a s, n.isAllowed a s = true ↔ (a, s) ∈ ops.foldl policyStep start) ∧
    (∀ a s, n.isAllowed a s = true → ValidPair (a, s) ∧
      ((a, s) ∈ start ∨ ∃ op ∈ ops, (a, s) ∈ op.asks)) ∧
    n.getAllowedType = (ops.foldl policyStep start).head? := by
  intro n
  have hp := c14_policy ops start
  have hinv : ∀ (ops : List NegOp) (start : List (Str × Str)), (∀ p ∈ start, ValidPair p) →
      ∀ p ∈ ops.foldl policyStep start, ValidPair p ∧ (p ∈ start ∨ ∃ op ∈ ops, p ∈ op.asks) := by
    intro ops
    induction ops with
    | nil => intro start hs p hp; exact ⟨hs p hp, .inl hp⟩
    | cons op r ih =>
      intro start hs p hp
      rw [List.foldl_cons] at hp
      have hsub : ∀ q ∈ policyStep start op, ValidPair q ∧ (q ∈ start ∨ q ∈ op.asks) := by
        intro q hq
        rw [policyStep.eq_def] at hq
        split at hq
        · next hv =>
          cases op with
          | setTypes ts => exact ⟨hv q hq, .inr hq⟩
          | add a s =>
            rcases List.mem_append.1 hq with h | h
            · exact ⟨hs q h, .inl h⟩
            · exact ⟨hv q h, .inr h⟩
        · exact ⟨hs q hq, .inl hq⟩
      obtain ⟨h1, h2⟩ := ih _ (fun q hq => (hsub q hq).1) p hp
      refine ⟨h1, ?_⟩
      rcases h2 with h2 | ⟨op', ho, h2⟩
      · rcases (hsub p h2).2 with h3 | h3
        · exact .inl h3
        · exact .inr ⟨op, by simp, h3⟩
      · exact .inr ⟨op', by simp [ho], h2⟩
  have hiff : ∀ a s, n.isAllowed a s = true ↔ (a, s) ∈ ops.foldl policyStep start := by
    intro a s
    simp only [Negotiator.isAllowed, Bool.and_eq_true, sessionTypeOk_iff, List.contains_eq_mem, decide_eq_true_eq]
    constructor
    · rintro ⟨h, -⟩; rw [← hp]; exact h
    · intro h; exact ⟨by rw [← hp] at h; exact h, (hinv ops start hs _ h).1⟩
  exact ⟨hiff, fun a s h => hinv ops start hs _ ((hiff a s).1 h), by simp only [Negotiator.getAllowedType]; rw [← hp]⟩

/-- **C14** the two negotiators that come with the library can be made, allow every valid pair, or every one with encryption,
    and prefer `HMAC-SHA256` with `DH-SHA256` (not, as the text at openid/association.py:17-24 says, SHA-1) -/
theorem c14_defaults :
    Negotiator.setAllowedTypes defaultAssociationOrder = .ok defaultAssociationOrder ∧
    Negotiator.setAllowedTypes onlyEncryptedAssociationOrder = .ok onlyEncryptedAssociationOrder ∧
    (∀ a s, Negotiator.isAllowed defaultAssociationOrder a s = true ↔ ValidPair (a, s)) ∧
    (∀ a s, Negotiator.isAllowed onlyEncryptedAssociationOrder a s = true ↔ ValidPair (a, s) ∧ s ≠ t!"no-encryption") ∧
    Negotiator.getAllowedType defaultAssociationOrder = some (t!"HMAC-SHA256", t!"DH-SHA256") ∧
    Negotiator.getAllowedType onlyEncryptedAssociationOrder = some (t!"HMAC-SHA256", t!"DH-SHA256") := by
  refine ⟨by decide, by decide, fun a s => ?_, fun a s => ?_, rfl, rfl⟩
  · simp only [Negotiator.isAllowed, Bool.and_eq_true, sessionTypeOk_iff, List.contains_eq_mem, decide_eq_true_eq]
    refine and_iff_right_of_imp fun h => ?_
    simp only [ValidPair] at h
    simp only [defaultAssociationOrder, List.mem_cons, Prod.mk.injEq, List.not_mem_nil, or_false]
    grind
  · simp only [Negotiator.isAllowed, Bool.and_eq_true, sessionTypeOk_iff, List.contains_eq_mem, decide_eq_true_eq]
    simp only [ValidPair, onlyEncryptedAssociationOrder, List.mem_cons, Prod.mk.injEq, List.not_mem_nil, or_false]
    constructor
    · rintro ⟨⟨rfl, rfl⟩ | ⟨rfl, rfl⟩, h⟩ <;> exact ⟨h, by decide⟩
    · rintro ⟨h, hs⟩
      exact ⟨by grind, h⟩

example : (∀ p ∈ defaultAssociationOrder, ValidPair p) ∧ ∀ p ∈ onlyEncryptedAssociationOrder, ValidPair p := by
  simp [defaultAssociationOrder, onlyEncryptedAssociationOrder, ValidPair]
example : ([NegOp.setTypes [(t!"HMAC-SHA1", t!"DH-SHA1"), (t!"HMAC-SHA1", t!"DH-SHA256")],
    .add t!"HMAC-SHA256" none, .add t!"X" none, .add t!"HMAC-SHA1" (some t!"no-encryption")].foldl negStep
    [(t!"HMAC-SHA1", t!"DH-SHA1")]) =
    [(t!"HMAC-SHA1", t!"DH-SHA1"), (t!"HMAC-SHA256", t!"DH-SHA256"), (t!"HMAC-SHA256", t!"no-encryption"),
     (t!"HMAC-SHA1", t!"no-encryption")] := by decide

end Props
