import Verif.Base.Base64
import Verif.Lemmas.Py
/-! Base64 round trip. -/

namespace Base64
open Py

theorem toNat_ofNat_lt (n : Nat) (h : n < 0xD800) : (Char.ofNat n).toNat = n := by
  have hv : n.isValidChar := Or.inl h
  simp [Char.ofNat, hv, Char.toNat, Char.ofNatAux]

theorem encDigit_props (n : Nat) (h : n < 64) :
    decDigit (encDigit n) = some n ∧ encDigit n ≠ '=' ∧ (encDigit n).toNat < 128 ∧
      encDigit n ≠ '\n' := by
  have : ∀ n, n < 64 → decDigit (encDigit n) = some n ∧ encDigit n ≠ '=' ∧
      (encDigit n).toNat < 128 ∧ encDigit n ≠ '\n' := by decide
  exact this n h

theorem encDigit_mem (n : Nat) (h : n < 64) : encDigit n ∈ alphabet := by
  have : ∀ n, n < 64 → encDigit n ∈ alphabet := by decide
  exact this n h

theorem encode_alphabet (b : Bytes) : ∀ c ∈ encode b, c ∈ alphabet ∨ c = '=' := by
  fun_induction encode b with
  | case1 => simp
  | case2 a =>
    have := a.toNat_lt
    intro c hc
    simp only [List.mem_cons, List.not_mem_nil, or_false] at hc
    rcases hc with rfl | rfl | rfl | rfl
    · exact .inl (encDigit_mem _ (by omega))
    · exact .inl (encDigit_mem _ (by omega))
    · exact .inr rfl
    · exact .inr rfl
  | case3 a b =>
    have := a.toNat_lt; have := b.toNat_lt
    intro c hc
    simp only [List.mem_cons, List.not_mem_nil, or_false] at hc
    rcases hc with rfl | rfl | rfl | rfl
    · exact .inl (encDigit_mem _ (by omega))
    · exact .inl (encDigit_mem _ (by omega))
    · exact .inl (encDigit_mem _ (by omega))
    · exact .inr rfl
  | case4 a b c r ih =>
    have := a.toNat_lt; have := b.toNat_lt; have := c.toNat_lt
    intro x hx
    simp only [List.mem_cons] at hx
    rcases hx with rfl | rfl | rfl | rfl | hx
    · exact .inl (encDigit_mem _ (by omega))
    · exact .inl (encDigit_mem _ (by omega))
    · exact .inl (encDigit_mem _ (by omega))
    · exact .inl (encDigit_mem _ (by omega))
    · exact ih x hx

theorem encode_ascii (b : Bytes) : isAscii (encode b) = true := by
  rw [isAscii, List.all_eq_true]
  intro c hc
  have : ∀ c ∈ alphabet ++ ['='], c.toNat < 128 := by decide
  simpa using this c (by simpa [or_comm] using encode_alphabet b c hc)

theorem decodeAux_digit0 (left v : Nat) (r : Str) (hv : v < 64) (pads : Nat) :
    decodeAux ⟨0, left, pads⟩ (encDigit v :: r) = decodeAux ⟨1, v, 0⟩ r := by
  have h := encDigit_props v hv
  simp [decodeAux, h.1, h.2.1]

theorem decodeAux_digit1 (left v : Nat) (r : Str) (hv : v < 64) (pads : Nat) :
    decodeAux ⟨1, left, pads⟩ (encDigit v :: r) =
      (decodeAux ⟨2, v % 16, 0⟩ r).map (UInt8.ofNat (left * 4 + v / 16) :: ·) := by
  have h := encDigit_props v hv
  simp [decodeAux, h.1, h.2.1]
  cases decodeAux ⟨2, v % 16, 0⟩ r <;> rfl

theorem decodeAux_digit2 (left v : Nat) (r : Str) (hv : v < 64) (pads : Nat) :
    decodeAux ⟨2, left, pads⟩ (encDigit v :: r) =
      (decodeAux ⟨3, v % 4, 0⟩ r).map (UInt8.ofNat (left * 16 + v / 4) :: ·) := by
  have h := encDigit_props v hv
  simp [decodeAux, h.1, h.2.1]
  cases decodeAux ⟨3, v % 4, 0⟩ r <;> rfl

theorem decodeAux_digit3 (left v : Nat) (r : Str) (hv : v < 64) (pads : Nat) :
    decodeAux ⟨3, left, pads⟩ (encDigit v :: r) =
      (decodeAux ⟨0, 0, 0⟩ r).map (UInt8.ofNat (left * 64 + v) :: ·) := by
  have h := encDigit_props v hv
  simp [decodeAux, h.1, h.2.1]
  cases decodeAux ⟨0, 0, 0⟩ r <;> rfl

theorem ofNat_eq (a : UInt8) (n : Nat) (h : n = a.toNat) : UInt8.ofNat n = a := by
  subst h; simp

theorem decodeAux_encode (b : Bytes) (pads : Nat) : decodeAux ⟨0, 0, pads⟩ (encode b) = .ok b := by
  fun_induction encode b generalizing pads with
  | case1 => rfl
  | case2 a =>
    have := a.toNat_lt
    rw [decodeAux_digit0 _ _ _ (by omega), decodeAux_digit1 _ _ _ (by omega)]
    have e : ∀ l, decodeAux ⟨2, l, 0⟩ ['=', '='] = .ok [] := fun _ => rfl
    simp only [e, Except.map, Except.ok.injEq, List.cons.injEq, and_true]
    exact ofNat_eq _ _ (by omega)
  | case3 a b =>
    have := a.toNat_lt; have := b.toNat_lt
    rw [decodeAux_digit0 _ _ _ (by omega), decodeAux_digit1 _ _ _ (by omega),
      decodeAux_digit2 _ _ _ (by omega)]
    have e : ∀ l, decodeAux ⟨3, l, 0⟩ ['='] = .ok [] := fun _ => rfl
    simp only [e, Except.map, Except.ok.injEq, List.cons.injEq, and_true]
    exact ⟨ofNat_eq _ _ (by omega), ofNat_eq _ _ (by omega)⟩
  | case4 a b c r ih =>
    have := a.toNat_lt; have := b.toNat_lt; have := c.toNat_lt
    rw [decodeAux_digit0 _ _ _ (by omega), decodeAux_digit1 _ _ _ (by omega),
      decodeAux_digit2 _ _ _ (by omega), decodeAux_digit3 _ _ _ (by omega), ih]
    simp only [Except.map, Except.ok.injEq, List.cons.injEq, and_true]
    exact ⟨ofNat_eq _ _ (by omega), ofNat_eq _ _ (by omega), ofNat_eq _ _ (by omega)⟩

theorem decode_encode (b : Bytes) : decode (encode b) = .ok b := by
  rw [decode, encode_ascii, if_pos rfl, decodeAux_encode]

theorem decodeAux_error (st : DecSt) (s : Str) (e : PyErr) (h : decodeAux st s = .error e) :
    e = .valueError := by
  induction s generalizing st with
  | nil => simp only [decodeAux] at h; split at h <;> simp_all
  | cons c r ih =>
    rw [decodeAux] at h
    split at h
    · split at h
      · split at h
        · simp at h
        · exact ih _ h
      · exact ih _ h
    · split at h
      · exact ih _ h
      · split at h
        · exact ih _ h
        · split at h
          · rcases bind_eq_error.1 h with h | ⟨_, _, h⟩
            · exact ih _ h
            · simp at h
          · split at h
            · rcases bind_eq_error.1 h with h | ⟨_, _, h⟩
              · exact ih _ h
              · simp at h
            · rcases bind_eq_error.1 h with h | ⟨_, _, h⟩
              · exact ih _ h
              · simp at h

theorem decode_error (s : Str) (e : PyErr) (h : decode s = .error e) : e = .valueError := by
  rw [decode] at h
  split at h
  · exact decodeAux_error _ _ _ h
  · simp at h; exact h.symm

theorem encode_inj (a b : Bytes) (h : encode a = encode b) : a = b := by
  have := decode_encode a
  rw [h, decode_encode] at this
  simpa using this.symm

end Base64
