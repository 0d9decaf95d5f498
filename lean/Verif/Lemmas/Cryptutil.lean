import Verif.Model.Cryptutil
import Verif.Lemmas.Base64
/-! Helper lemmas for binary integers. -/

namespace Cryptutil
open Py

/-- value of base-16 digits -/
def hexVal (ds : List Nat) : Nat := ds.foldl (fun a d => a * 16 + d) 0

theorem foldl_base {α : Type} (B : Nat) (f : α → Nat) (l : List α) (x : Nat) :
    l.foldl (fun a d => a * B + f d) x =
      x * B ^ l.length + l.foldl (fun a d => a * B + f d) 0 := by
  induction l generalizing x with
  | nil => simp
  | cons d r ih =>
    rw [List.foldl_cons, List.foldl_cons, ih (x * B + f d), ih (0 * B + f d), List.length_cons,
      Nat.pow_succ, Nat.zero_mul, Nat.zero_add, Nat.add_mul, Nat.mul_assoc, Nat.mul_comm B,
      Nat.add_assoc]

theorem hexVal_append (a b : List Nat) : hexVal (a ++ b) = hexVal a * 16 ^ b.length + hexVal b := by
  simp only [hexVal, List.foldl_append]
  exact foldl_base 16 (fun d => d) b _

theorem hexDigitsAux_spec (fuel n : Nat) (acc : List Nat) (h : n < fuel) :
    ∃ ds, hexDigitsAux fuel n acc = ds ++ acc ∧ ds ≠ [] ∧ (∀ d ∈ ds, d < 16) ∧ hexVal ds = n ∧
      (∀ d r, ds = d :: r → r ≠ [] → d ≠ 0) := by
  induction fuel generalizing n acc with
  | zero => omega
  | succ fuel ih =>
    rw [hexDigitsAux]
    by_cases h0 : n / 16 = 0
    · refine ⟨[n % 16], by simp [h0], by simp, by simp; omega, by simp [hexVal]; omega, ?_⟩
      intro d r e; simp at e; simp [e.2]
    · obtain ⟨ds, h1, h2, h3, h4, h5⟩ := ih (n / 16) (n % 16 :: acc) (by omega)
      refine ⟨ds ++ [n % 16], by simp [h0, h1], by simp, ?_, ?_, ?_⟩
      · intro d hd
        rcases List.mem_append.1 hd with hd | hd
        · exact h3 d hd
        · simp at hd; omega
      · rw [hexVal_append, h4]; simp [hexVal]; omega
      · intro d r e hr
        cases ds with
        | nil => contradiction
        | cons x xs =>
          simp only [List.cons_append, List.cons.injEq] at e
          obtain ⟨rfl, rfl⟩ := e
          cases xs with
          | nil => rintro rfl; simp [hexVal] at h4; omega
          | cons y ys => exact h5 x (y :: ys) rfl (by simp)

theorem hexDigits_spec (n : Nat) :
    hexDigits n ≠ [] ∧ (∀ d ∈ hexDigits n, d < 16) ∧ hexVal (hexDigits n) = n ∧
      (∀ d r, hexDigits n = d :: r → r ≠ [] → d ≠ 0) := by
  obtain ⟨ds, h1, h2⟩ := hexDigitsAux_spec (n + 1) n [] (by omega)
  rw [List.append_nil] at h1
  rw [hexDigits, h1]; exact h2

def nibbles (b : Bytes) : List Nat := b.flatMap fun x => [x.toNat / 16, x.toNat % 16]

theorem nibbles_fromHex (ds : List Nat) (h : ∀ d ∈ ds, d < 16) (he : ds.length % 2 = 0) :
    nibbles (fromHex ds) = ds := by
  fun_induction fromHex ds with
  | case1 a b r ih =>
    have ha := h a (by simp); have hb := h b (by simp)
    have e : (UInt8.ofNat (16 * a + b)).toNat = 16 * a + b := by
      simp [UInt8.toNat_ofNat']; omega
    simp only [List.length_cons] at he
    simp only [nibbles, List.flatMap_cons, e]
    rw [show (16 * a + b) / 16 = a by omega, show (16 * a + b) % 16 = b by omega]
    have := ih (fun d hd => h d (by simp [hd])) (by omega)
    rw [nibbles] at this
    rw [this]; rfl
  | case2 l hl =>
    match l with
    | [] => rfl
    | [x] => simp at he
    | a :: b :: r => exact absurd rfl (hl a b r)

/-- the big-endian value of a byte string -/
def beVal (b : Bytes) : Nat := b.foldl (fun a x => a * 256 + x.toNat) 0

theorem hexVal_nibbles (b : Bytes) : hexVal (nibbles b) = beVal b := by
  have aux : ∀ (b : Bytes) (x : Nat),
      (nibbles b).foldl (fun a d => a * 16 + d) x = b.foldl (fun a y => a * 256 + y.toNat) x := by
    intro b
    induction b with
    | nil => intro x; rfl
    | cons y r ih =>
      intro x
      rw [nibbles, List.flatMap_cons, List.foldl_append]
      simp only [List.foldl_cons, List.foldl_nil]
      rw [nibbles] at ih
      rw [ih]
      congr 1; omega
  exact aux b 0

theorem bytesToInt_eq (b : Bytes) (h : b ≠ []) : bytesToInt b = .ok (beVal b) := by
  cases b with
  | nil => contradiction
  | cons x r => rw [← hexVal_nibbles]; rfl

theorem beVal_cons_zero (b : Bytes) : beVal (0 :: b) = beVal b := by
  simp [beVal]

theorem beVal_fixBtwoc {b c : Bytes} (h : fixBtwoc b = .ok c) : beVal c = beVal b := by
  cases b with
  | nil => simp [fixBtwoc] at h
  | cons x r =>
    simp only [fixBtwoc] at h
    split at h <;> simp at h <;> subst h
    · exact beVal_cons_zero _
    · rfl

theorem beVal_append_single (b : Bytes) (x : UInt8) : beVal (b ++ [x]) = beVal b * 256 + x.toNat := by
  simp [beVal, List.foldl_append]

theorem beVal_cons (x : UInt8) (b : Bytes) : beVal (x :: b) = x.toNat * 256 ^ b.length + beVal b := by
  have := foldl_base 256 UInt8.toNat b x.toNat
  simpa [beVal] using this

theorem beVal_lt (b : Bytes) : beVal b < 256 ^ b.length := by
  induction b with
  | nil => simp [beVal]
  | cons x r ih =>
    rw [beVal_cons, List.length_cons, Nat.pow_succ]
    have := x.toNat_lt
    have h2 : x.toNat * 256 ^ r.length ≤ 255 * 256 ^ r.length := Nat.mul_le_mul_right _ (by omega)
    omega

/-- same length and same value: same bytes -/
theorem beVal_inj_length (a b : Bytes) (hl : a.length = b.length) (hv : beVal a = beVal b) : a = b := by
  induction a generalizing b with
  | nil => cases b with
    | nil => rfl
    | cons _ _ => simp at hl
  | cons x r ih =>
    cases b with
    | nil => simp at hl
    | cons y s =>
      simp only [List.length_cons, Nat.add_right_cancel_iff] at hl
      rw [beVal_cons, beVal_cons, hl] at hv
      have h1 := beVal_lt r; have h2 := beVal_lt s
      rw [hl] at h1
      have hp : 0 < 256 ^ s.length := Nat.pow_pos (by omega)
      have hx : x.toNat = y.toNat := by
        have e1 : (x.toNat * 256 ^ s.length + beVal r) / 256 ^ s.length = x.toNat := by
          rw [Nat.mul_comm, Nat.mul_add_div hp, Nat.div_eq_of_lt h1]; omega
        have e2 : (y.toNat * 256 ^ s.length + beVal s) / 256 ^ s.length = y.toNat := by
          rw [Nat.mul_comm, Nat.mul_add_div hp, Nat.div_eq_of_lt h2]; omega
        rw [← e1, hv, e2]
      have hx' : x = y := UInt8.toNat_inj.1 hx
      rw [hx] at hv
      rw [hx', ih s hl (by omega)]

end Cryptutil
