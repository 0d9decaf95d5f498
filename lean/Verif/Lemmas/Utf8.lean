import Verif.Base.Utf8
/-! UTF-8 round trip. -/

namespace Utf8
open Py

theorem toNat_ofNat_lt (n : Nat) (h : n < 256) : (UInt8.ofNat n).toNat = n := by
  simp [UInt8.toNat_ofNat', Nat.mod_eq_of_lt h]

theorem char_bound (c : Char) : c.toNat < 0xD800 ∨ (0xDFFF < c.toNat ∧ c.toNat < 0x110000) := by
  have := c.valid
  simp [UInt32.isValidChar, Nat.isValidChar] at this
  exact this

theorem decodeFrom_encodeChar (c : Char) (r : Bytes) :
    decodeFrom .idle (encodeChar c ++ r) = some c :: decodeFrom .idle r := by
  have hb := char_bound c
  have hc : Char.ofNat c.toNat = c := Char.ofNat_toNat c
  unfold encodeChar
  generalize hn : c.toNat = n at *
  simp only []
  split
  · next h =>
    have e := toNat_ofNat_lt n (by omega)
    simp [decodeFrom, step, start, e, h, hc]
  split
  · next h1 h2 =>
    have e1 := toNat_ofNat_lt (0xC0 + n / 64) (by omega)
    have e2 := toNat_ofNat_lt (0x80 + n % 64) (by omega)
    have s1 : start (0xC0 + n / 64) = ([], .pend 0 (n / 64) 0x80 0xBF) := by
      unfold start
      rw [if_neg (by omega), if_neg (by omega), if_pos (by omega)]
      simp
    simp only [List.cons_append, List.nil_append, decodeFrom, step, e1, s1, e2]
    rw [if_pos (by omega)]
    have : n / 64 * 64 + (0x80 + n % 64 - 0x80) = n := by omega
    simp only [List.singleton_append, this, hc]
  split
  · next h1 h2 h3 =>
    have e1 := toNat_ofNat_lt (0xE0 + n / 4096) (by omega)
    have e2 := toNat_ofNat_lt (0x80 + n / 64 % 64) (by omega)
    have e3 := toNat_ofNat_lt (0x80 + n % 64) (by omega)
    have s1 : ∃ lo hi, start (0xE0 + n / 4096) = ([], .pend 1 (n / 4096) lo hi) ∧
        lo ≤ 0x80 + n / 64 % 64 ∧ 0x80 + n / 64 % 64 ≤ hi := by
      unfold start
      rw [if_neg (by omega), if_neg (by omega), if_neg (by omega)]
      by_cases ha : 0xE0 + n / 4096 = 0xE0
      · exact ⟨_, _, by rw [if_pos ha, show n / 4096 = 0 by omega], by omega, by omega⟩
      rw [if_neg ha]
      by_cases hd : 0xE0 + n / 4096 = 0xED
      · exact ⟨_, _, by rw [if_pos hd, show n / 4096 = 0xD by omega], by omega, by omega⟩
      rw [if_neg hd, if_pos (by omega)]
      exact ⟨0x80, 0xBF, by simp, by omega, by omega⟩
    obtain ⟨lo, hi, s1, hl, hh⟩ := s1
    simp only [List.cons_append, List.nil_append, decodeFrom, step, e1, s1, e2]
    rw [if_pos ⟨hl, hh⟩]
    simp only [e3]
    rw [if_pos (by omega)]
    have : (n / 4096 * 64 + (0x80 + n / 64 % 64 - 0x80)) * 64 + (0x80 + n % 64 - 0x80) = n := by
      omega
    simp only [List.nil_append, List.singleton_append, this, hc]
  · next h1 h2 h3 =>
    have e1 := toNat_ofNat_lt (0xF0 + n / 262144) (by omega)
    have e2 := toNat_ofNat_lt (0x80 + n / 4096 % 64) (by omega)
    have e3 := toNat_ofNat_lt (0x80 + n / 64 % 64) (by omega)
    have e4 := toNat_ofNat_lt (0x80 + n % 64) (by omega)
    have s1 : ∃ lo hi, start (0xF0 + n / 262144) = ([], .pend 2 (n / 262144) lo hi) ∧
        lo ≤ 0x80 + n / 4096 % 64 ∧ 0x80 + n / 4096 % 64 ≤ hi := by
      unfold start
      rw [if_neg (by omega), if_neg (by omega), if_neg (by omega), if_neg (by omega),
        if_neg (by omega), if_neg (by omega)]
      by_cases ha : 0xF0 + n / 262144 = 0xF0
      · exact ⟨_, _, by rw [if_pos ha, show n / 262144 = 0 by omega], by omega, by omega⟩
      rw [if_neg ha]
      by_cases hd : 0xF0 + n / 262144 = 0xF4
      · exact ⟨_, _, by rw [if_pos hd, show n / 262144 = 4 by omega], by omega, by omega⟩
      rw [if_neg hd, if_pos (by omega)]
      exact ⟨0x80, 0xBF, by simp, by omega, by omega⟩
    obtain ⟨lo, hi, s1, hl, hh⟩ := s1
    simp only [List.cons_append, List.nil_append, decodeFrom, step, e1, s1, e2]
    rw [if_pos ⟨hl, hh⟩]
    simp only [e3]
    rw [if_pos (by omega)]
    simp only [e4]
    rw [if_pos (by omega)]
    have : ((n / 262144 * 64 + (0x80 + n / 4096 % 64 - 0x80)) * 64 + (0x80 + n / 64 % 64 - 0x80)) * 64
        + (0x80 + n % 64 - 0x80) = n := by
      omega
    simp only [List.nil_append, List.singleton_append, this, hc]

theorem decodeFrom_encode_append (s : Str) (r : Bytes) :
    decodeFrom .idle (encode s ++ r) = s.map some ++ decodeFrom .idle r := by
  induction s with
  | nil => rfl
  | cons c s ih =>
    rw [encode, List.flatMap_cons, List.append_assoc, decodeFrom_encodeChar]
    rw [encode] at ih
    rw [ih]; rfl

theorem decodeFrom_encode (s : Str) : decodeFrom .idle (encode s) = s.map some := by
  have := decodeFrom_encode_append s []
  simpa [decodeFrom, flush] using this

theorem decode_encode (s : Str) : decode (encode s) = .ok s := by
  have : (s.map some).mapM id = some s := by
    induction s with
    | nil => rfl
    | cons c s ih => simp [ih]
  simp [decode, decodeFrom_encode, this]

theorem decodeReplace_encode (s : Str) : decodeReplace (encode s) = s := by
  simp [decodeReplace, decodeFrom_encode, orReplacement, Function.comp_def]

theorem encode_inj (s t : Str) (h : encode s = encode t) : s = t := by
  rw [← decodeReplace_encode s, h, decodeReplace_encode]

theorem encode_append (s t : Str) : encode (s ++ t) = encode s ++ encode t := by
  simp [encode]

/-! ## Truncated text -/

theorem step_progress (st : St) (b : UInt8) : (step st b).1 ≠ [] ∨ (step st b).2 ≠ .idle := by
  have hs : ∀ n, (start n).1 ≠ [] ∨ (start n).2 ≠ .idle := by
    intro n
    unfold start
    repeat' split
    all_goals simp
  unfold step
  cases st with
  | idle => exact hs _
  | pend k acc lo hi =>
    simp only
    split
    · split <;> simp
    · simp

theorem decodeFrom_ne_nil (st : St) (b : Bytes) (h : b ≠ [] ∨ st ≠ .idle) : decodeFrom st b ≠ [] := by
  induction b generalizing st with
  | nil =>
    cases st with
    | idle => simp at h
    | pend k acc lo hi => simp [decodeFrom, flush]
  | cons x r ih =>
    rw [decodeFrom]
    rcases step_progress st x with h | h
    · simp [h]
    · have := ih _ (.inr h)
      simp [this]

theorem decodeFrom_split (st : St) (q : Bytes) :
    ∃ o st', ∀ r, decodeFrom st (q ++ r) = o ++ decodeFrom st' r := by
  induction q generalizing st with
  | nil => exact ⟨[], st, fun r => rfl⟩
  | cons x q ih =>
    obtain ⟨o, st', h⟩ := ih (step st x).2
    exact ⟨(step st x).1 ++ o, st', fun r => by rw [List.cons_append, decodeFrom, h]; simp⟩

/-- a character cut off in the middle is an error -/
theorem decodeFrom_cut (c : Char) (q r : Bytes) (h : encodeChar c = q ++ r) (hq : q ≠ []) (hr : r ≠ []) :
    none ∈ decodeFrom .idle q := by
  obtain ⟨o, st', hs⟩ := decodeFrom_split .idle q
  have h1 := hs []
  rw [List.append_nil] at h1
  have h2 := hs r
  have h3 := decodeFrom_encodeChar c []
  rw [List.append_nil, h, h2] at h3
  cases st' with
  | pend k acc lo hi => rw [h1]; simp [decodeFrom, flush]
  | idle =>
    have h4 := decodeFrom_ne_nil .idle q (.inl hq)
    rw [h1] at h4
    have h5 := decodeFrom_ne_nil .idle r (.inl hr)
    simp only [decodeFrom, flush, List.append_nil] at h3 h4
    have h6 := congrArg List.length h3
    rw [List.length_append, List.length_singleton] at h6
    have := List.length_pos_iff.2 h4
    have := List.length_pos_iff.2 h5
    omega

theorem mapM_id_eq {l : List (Option Char)} {s : Str} : l.mapM id = some s ↔ l = s.map some := by
  induction l generalizing s with
  | nil => cases s <;> simp
  | cons x r ih =>
    rw [List.mapM_cons]
    cases x with
    | none => cases s <;> simp
    | some c =>
      cases s with
      | nil => cases hr : r.mapM id <;> simp [hr]
      | cons d s =>
        cases hr : r.mapM id with
        | none =>
          simp only [id, Option.pure_def, Option.bind_eq_bind, Option.bind_some, hr, Option.bind_none,
            List.map_cons, List.cons.injEq, Option.some.injEq, false_iff, not_and, reduceCtorEq]
          rintro rfl h
          rw [ih.2 h] at hr
          cases hr
        | some s' =>
          have := ih.1 hr
          subst this
          simp only [id, Option.pure_def, Option.bind_eq_bind, Option.bind_some, hr, Option.some.injEq,
            List.cons.injEq, List.map_cons]
          refine and_congr_right fun _ => ⟨fun h => by rw [h], fun h => ?_⟩
          exact (List.map_inj_right (fun a b h => Option.some.inj h)).1 h

theorem decode_ok_iff (b : Bytes) (s : Str) : decode b = .ok s ↔ decodeFrom .idle b = s.map some := by
  unfold decode
  split
  · next s' h =>
    rw [mapM_id_eq] at h
    rw [h, Except.ok.injEq]
    exact ⟨fun h => by rw [h], fun h => (List.map_inj_right (fun a b h => Option.some.inj h)).1 h⟩
  · next h =>
    simp only [reduceCtorEq, false_iff]
    intro h'
    rw [← mapM_id_eq] at h'
    rw [h'] at h
    cases h

/-- what is read from a truncated text is the beginning of the text -/
theorem decode_prefix (s s' : Str) (b : Bytes) (h : b <+: encode s) (hd : decode b = .ok s') : s' <+: s := by
  rw [decode_ok_iff] at hd
  induction s generalizing b s' with
  | nil =>
    have : b = [] := by simpa [encode] using h
    subst this
    have : s' = [] := by simpa [decodeFrom, flush] using hd.symm
    simp [this]
  | cons c s ih =>
    have he : encode (c :: s) = encodeChar c ++ encode s := by simp [encode]
    rw [he] at h
    rcases List.prefix_or_prefix_of_prefix h (List.prefix_append (encodeChar c) (encode s)) with h1 | ⟨b2, rfl⟩
    · obtain ⟨r, hr⟩ := h1
      by_cases hb : b = []
      · subst hb
        have : s' = [] := by simpa [decodeFrom, flush] using hd.symm
        simp [this]
      · by_cases hr0 : r = []
        · subst hr0
          rw [List.append_nil] at hr
          subst hr
          have := decodeFrom_encodeChar c []
          rw [List.append_nil, hd] at this
          have h2 : s' = [c] := by
            apply (List.map_inj_right (f := some) (fun a b h => Option.some.inj h)).1
            rw [this]; rfl
          subst h2
          simp
        · have := decodeFrom_cut c b r hr.symm hb hr0
          rw [hd] at this
          simp at this
    · rw [List.prefix_append_right_inj] at h
      rw [decodeFrom_encodeChar] at hd
      cases s' with
      | nil => cases hd
      | cons d s' =>
        simp only [List.map_cons, List.cons.injEq, Option.some.injEq] at hd
        obtain ⟨rfl, hd⟩ := hd
        obtain ⟨t, ht⟩ := ih s' b2 h hd
        exact ⟨t, by simp [ht]⟩

end Utf8
