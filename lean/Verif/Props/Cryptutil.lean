import Verif.Lemmas.Cryptutil
import Verif.Spec.Encoding
/-! # Properties of integer and base64 encodings: C03, C04 -/

namespace Props
open Py Cryptutil

theorem bigEndian_eq_beVal (b : Bytes) : Spec.bigEndian b = beVal b := by
  induction b with
  | nil => rfl
  | cons x r ih => rw [Spec.bigEndian, beVal_cons, ih]

/-- C03: `int_to_bytes(n)` is the `btwoc` encoding of `n`, for every natural number. -/
theorem c03_int_to_bytes_canonical (n : Nat) :
    ∃ b, intToBytes (n : Int) = .ok b ∧ Spec.IsBtwoc n b := by
  obtain ⟨h1, h2, h3, h4⟩ := hexDigits_spec n
  -- the padded digits
  have hpad : ∃ ds, (if (hexDigits n).length % 2 = 1 then 0 :: hexDigits n else hexDigits n) = ds ∧
      ds ≠ [] ∧ ds.length % 2 = 0 ∧ (∀ d ∈ ds, d < 16) ∧ hexVal ds = n ∧
      (∀ d e r, ds = d :: e :: r → r ≠ [] → d ≠ 0 ∨ e ≠ 0) := by
    split
    · next ho =>
      refine ⟨_, rfl, by simp, by simp; omega, ?_, ?_, ?_⟩
      · intro d hd; rcases List.mem_cons.1 hd with rfl | hd
        · omega
        · exact h2 d hd
      · have : hexVal (0 :: hexDigits n) = hexVal (hexDigits n) := by simp [hexVal]
        rw [this, h3]
      · intro d e r he hr
        simp only [List.cons.injEq] at he
        exact Or.inr (h4 e r he.2 hr)
    · next ho =>
      refine ⟨_, rfl, h1, by omega, h2, h3, ?_⟩
      intro d e r he hr
      exact Or.inl (h4 d (e :: r) he (by simp))
  obtain ⟨ds, hds, hne, hev, hlt, hval, hlead⟩ := hpad
  match ds, hne with
  | [x], _ => simp at hev
  | d :: e :: r, _ =>
    have hd := hlt d (by simp); have he := hlt e (by simp)
    have hx : (UInt8.ofNat (16 * d + e)).toNat = 16 * d + e := by
      simp [UInt8.toNat_ofNat']; omega
    have hbe : beVal (fromHex (d :: e :: r)) = n := by
      rw [← hexVal_nibbles, nibbles_fromHex _ hlt hev, hval]
    simp only [intToBytes, hds]
    by_cases hbig : 16 * d + e > 127
    · refine ⟨0 :: fromHex (d :: e :: r), ?_, ?_, ⟨0, _, rfl, by decide⟩, ?_⟩
      · simp only [fromHex, fixBtwoc, hx]; rw [if_pos hbig]
      · rw [bigEndian_eq_beVal, beVal_cons_zero, hbe]
      · intro y s hy
        simp only [fromHex, List.cons.injEq, true_and] at hy
        rw [← hy.1, hx]; omega
    · refine ⟨fromHex (d :: e :: r), ?_, ?_, ⟨_, _, rfl, by rw [hx]; omega⟩, ?_⟩
      · simp only [fromHex, fixBtwoc, hx]; rw [if_neg hbig]
      · rw [bigEndian_eq_beVal, hbe]
      · intro y s hy
        simp only [fromHex, List.cons.injEq] at hy
        have h0 : 16 * d + e = 0 := by rw [← hx, hy.1]; rfl
        -- then all digits are zero-led, contradicting minimality unless r is empty
        have hrn : r ≠ [] := by rintro rfl; simp [fromHex] at hy
        have := hlead d e r rfl hrn
        omega

example : intToBytes 128 = .ok [0, 128] := by decide
example : intToBytes 0 = .ok [0] := by decide

/-- `btwoc` encodings are unique -/
theorem c03_btwoc_unique (n : Nat) (a b : Bytes) (ha : Spec.IsBtwoc n a) (hb : Spec.IsBtwoc n b) :
    a = b := by
  obtain ⟨va, ⟨x, r, rfl, hx⟩, ca⟩ := ha
  obtain ⟨vb, ⟨y, s, rfl, hy⟩, cb⟩ := hb
  rw [bigEndian_eq_beVal] at va vb
  apply beVal_inj_length _ _ _ (va.trans vb.symm)
  -- lengths agree: a longer canonical string has a larger value
  have key : ∀ (x : UInt8) (r : Bytes) (y : UInt8) (s : Bytes), y.toNat < 128 →
      (∀ z t, x :: r = 0 :: z :: t → 128 ≤ z.toNat) → s.length < r.length →
      beVal (y :: s) < beVal (x :: r) := by
    intro x r y s hy hc hl
    have h1 : beVal (y :: s) < 128 * 256 ^ s.length := by
      rw [beVal_cons]
      have := beVal_lt s
      have h2 : y.toNat * 256 ^ s.length ≤ 127 * 256 ^ s.length := Nat.mul_le_mul_right _ (by omega)
      omega
    have h2 : 128 * 256 ^ s.length ≤ beVal (x :: r) := by
      cases r with
      | nil => simp at hl
      | cons z t =>
        have hle : 256 ^ s.length ≤ 256 ^ t.length :=
          Nat.pow_le_pow_right (by omega) (by simp at hl; omega)
        by_cases h0 : x = 0
        · subst h0
          have := hc z t rfl
          rw [beVal_cons_zero, beVal_cons]
          have : 128 * 256 ^ t.length ≤ z.toNat * 256 ^ t.length := Nat.mul_le_mul_right _ this
          omega
        · have hx1 : 1 ≤ x.toNat := by
            have : x.toNat ≠ 0 := fun h => h0 (UInt8.toNat_inj.1 h)
            omega
          rw [beVal_cons, List.length_cons, Nat.pow_succ]
          have : 1 * (256 ^ t.length * 256) ≤ x.toNat * (256 ^ t.length * 256) :=
            Nat.mul_le_mul_right _ hx1
          omega
    omega
  rcases Nat.lt_trichotomy r.length s.length with h | h | h
  · have := key y s x r hx cb h; omega
  · simp [h]
  · have := key x r y s hy ca h; omega

/-- C03: decoding inverts encoding for every natural number. -/
theorem c03_round_trip (n : Nat) (b : Bytes) (h : intToBytes (n : Int) = .ok b) :
    bytesToInt b = .ok n := by
  obtain ⟨b', h', hv, ⟨x, r, rfl, _⟩, _⟩ := c03_int_to_bytes_canonical n
  rw [h] at h'
  simp only [Except.ok.injEq] at h'
  subst h'
  rw [bytesToInt_eq _ (by simp), ← bigEndian_eq_beVal, hv]

/-- C03: `bytes_to_int` is the big-endian value of every non-empty byte string, and encoding
    the result gives back the bytes exactly when they were canonical. -/
theorem c03_bytes_to_int (b : Bytes) (hb : b ≠ []) :
    bytesToInt b = .ok (Spec.bigEndian b) ∧
    (intToBytes (Spec.bigEndian b : Nat) = .ok b ↔ Spec.IsBtwoc (Spec.bigEndian b) b) := by
  refine ⟨by rw [bytesToInt_eq _ hb, bigEndian_eq_beVal], ?_⟩
  obtain ⟨b', h', hc⟩ := c03_int_to_bytes_canonical (Spec.bigEndian b)
  constructor
  · intro h; rw [h] at h'; simp only [Except.ok.injEq] at h'; rw [h']; rw [h'] at hc; exact hc
  · intro h; rw [h', c03_btwoc_unique _ _ _ h hc]

/-- C03: `fix_btwoc` keeps the value and clears the top bit of every non-empty byte string. -/
theorem c03_fix_btwoc (b : Bytes) (hb : b ≠ []) :
    ∃ c, fixBtwoc b = .ok c ∧ Spec.bigEndian c = Spec.bigEndian b ∧
      ∃ x r, c = x :: r ∧ x.toNat < 128 := by
  cases b with
  | nil => contradiction
  | cons x r =>
    by_cases h : x.toNat > 127
    · exact ⟨0 :: x :: r, by simp [fixBtwoc, h], by simp [bigEndian_eq_beVal, beVal_cons_zero],
        0, _, rfl, by decide⟩
    · exact ⟨x :: r, by simp [fixBtwoc, h], rfl, x, r, rfl, by omega⟩

/-- C03: negative numbers and the empty string are refused. -/
theorem c03_refused (n : Nat) :
    intToBytes (Int.negSucc n) = .error .valueError ∧ bytesToInt [] = .error .valueError ∧
      fixBtwoc [] = .error .indexError := ⟨rfl, rfl, rfl⟩

/-- C04: base64 text decodes to the bytes it encodes. -/
theorem c04_base64 (b : Bytes) : fromBase64 (toBase64 b) = .ok b := by
  simp [fromBase64, toBase64, Base64.decode_encode]

/-- C04: the output is one line over the base64 alphabet, so it contains no newline, colon, comma
    or space. -/
theorem c04_base64_alphabet (b : Bytes) :
    ∀ c ∈ toBase64 b, c ∈ t!"ABCDEFGHIJKLMNOPQRSTUVWXYZabcdefghijklmnopqrstuvwxyz0123456789+/=" := by
  intro c hc
  rw [toBase64, List.dropLast_concat] at hc
  rcases Base64.encode_alphabet b c hc with h | h
  · have : ∀ c ∈ Base64.alphabet, c ∈ t!"ABCDEFGHIJKLMNOPQRSTUVWXYZabcdefghijklmnopqrstuvwxyz0123456789+/=" := by
      decide
    exact this c h
  · subst h; decide

/-- C04: numbers survive the trip through base64 text. -/
theorem c04_long (n : Nat) : ∃ s, longToBase64 (n : Int) = .ok s ∧ base64ToLong s = .ok n := by
  obtain ⟨b, hb, _⟩ := c03_int_to_bytes_canonical n
  refine ⟨toBase64 b, by simp [longToBase64, hb], ?_⟩
  simp [base64ToLong, c04_base64, c03_round_trip n b hb]

/-- C04: whatever the text, decoding either succeeds or raises ValueError. -/
theorem c04_decode_total (s : Str) :
    (∃ b, fromBase64 s = .ok b) ∨ fromBase64 s = .error .valueError := by
  cases h : fromBase64 s with
  | ok b => exact .inl ⟨b, rfl⟩
  | error e => exact .inr (by rw [Base64.decode_error s e h])

example : toBase64 [77, 97] = t!"TWE=" := by decide
example : fromBase64 t!"TW\nE=" = .ok [77, 97] := by decide
example : longToBase64 2 = .ok t!"Ag==" := by decide

end Props
