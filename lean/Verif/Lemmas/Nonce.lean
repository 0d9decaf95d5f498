import Verif.Model.Nonce
import Verif.Lemmas.Py
/-! # Lemmas about the nonce model: calendar arithmetic and the time format -/

namespace Nonce
open Py

theorem monthDay_spec (leap : Bool) (n : Nat) (h : n < 365 ∨ (n < 366 ∧ leap = true)) :
    1 ≤ (monthDay leap n).1 ∧ (monthDay leap n).1 ≤ 12 ∧ 1 ≤ (monthDay leap n).2 ∧
    (monthDay leap n).2 ≤ daysInMonth leap (monthDay leap n).1 ∧
    daysBeforeMonth leap (monthDay leap n).1 + (monthDay leap n).2 = n + 1 := by
  have key : ∀ n, n < 366 → ∀ leap : Bool, (n < 365 ∨ leap = true) →
      1 ≤ (monthDay leap n).1 ∧ (monthDay leap n).1 ≤ 12 ∧ 1 ≤ (monthDay leap n).2 ∧
      (monthDay leap n).2 ≤ daysInMonth leap (monthDay leap n).1 ∧
      daysBeforeMonth leap (monthDay leap n).1 + (monthDay leap n).2 = n + 1 := by
    decide +kernel
  rcases h with h | ⟨h, hl⟩
  · exact key n (by omega) leap (.inl h)
  · exact key n h leap (.inr hl)

theorem isLeap_decomp (a b c d : Nat) (hb : b < 4) (hc : c < 25) (hd : d < 4) :
    isLeap (a * 400 + 1 + b * 100 + c * 4 + d) = decide (d = 3 ∧ (c ≠ 24 ∨ b = 3)) := by
  rw [isLeap, decide_eq_decide]
  omega

theorem daysBeforeYear_decomp (a b c d : Nat) (hb : b < 4) (hc : c < 25) (hd : d < 4) :
    daysBeforeYear (a * 400 + 1 + b * 100 + c * 4 + d) = a * 146097 + b * 36524 + c * 1461 + d * 365 := by
  rw [daysBeforeYear]; omega

theorem fromOrdinal_spec (ord : Nat) (h : 1 ≤ ord) :
    toOrdinal (fromOrdinal ord).1 (fromOrdinal ord).2.1 (fromOrdinal ord).2.2 = ord ∧
    1 ≤ (fromOrdinal ord).1 ∧ 1 ≤ (fromOrdinal ord).2.1 ∧ (fromOrdinal ord).2.1 ≤ 12 ∧
    1 ≤ (fromOrdinal ord).2.2 ∧
    (fromOrdinal ord).2.2 ≤ daysInMonth (isLeap (fromOrdinal ord).1) (fromOrdinal ord).2.1 := by
  obtain ⟨n, rfl⟩ : ∃ n, ord = n + 1 := ⟨ord - 1, by omega⟩
  generalize ha : n / 146097 = a
  generalize hr1 : n % 146097 = r1
  generalize hb : r1 / 36524 = b
  generalize hr2 : r1 % 36524 = r2
  generalize hc : r2 / 1461 = c
  generalize hr3 : r2 % 1461 = r3
  generalize hd : r3 / 365 = d
  generalize hr4 : r3 % 365 = r4
  have hbb : b ≤ 4 := by omega
  have hcc : c < 25 := by omega
  have hdd : d ≤ 4 := by omega
  have hf : fromOrdinal (n + 1) = if d = 4 ∨ b = 4 then (a * 400 + 1 + b * 100 + c * 4 + d - 1, 12, 31)
      else (a * 400 + 1 + b * 100 + c * 4 + d, monthDay (decide (d = 3 ∧ (c ≠ 24 ∨ b = 3))) r4) := by
    simp only [fromOrdinal, Nat.add_sub_cancel, ha, hr1, hb, hr2, hc, hr3, hd, hr4]
  rw [hf]
  by_cases h4 : d = 4 ∨ b = 4
  · rw [if_pos h4]
    simp only
    have hyear : ∃ a' b' c', b' < 4 ∧ c' < 25 ∧
        a * 400 + 1 + b * 100 + c * 4 + d - 1 = a' * 400 + 1 + b' * 100 + c' * 4 + 3 ∧
        (c' ≠ 24 ∨ b' = 3) ∧ n = a' * 146097 + b' * 36524 + c' * 1461 + 1460 := by
      by_cases hb4 : b = 4
      · exact ⟨a, 3, 24, by omega, by omega, by omega, by omega, by omega⟩
      · have hd4 : d = 4 := by omega
        exact ⟨a, b, c, by omega, hcc, by omega, by omega, by omega⟩
    obtain ⟨a', b', c', h1, h2, h3, h5, h6⟩ := hyear
    rw [h3, toOrdinal, daysBeforeYear_decomp a' b' c' 3 h1 h2 (by omega),
      isLeap_decomp a' b' c' 3 h1 h2 (by omega)]
    have : decide (3 = 3 ∧ (c' ≠ 24 ∨ b' = 3)) = true := by simpa using h5
    rw [this]
    refine ⟨?_, by omega, by omega, by omega, by omega, by decide⟩
    have : daysBeforeMonth true 12 = 335 := by decide
    omega
  · rw [if_neg h4]
    simp only
    have hb' : b < 4 := by omega
    have hd' : d < 4 := by omega
    rw [toOrdinal, daysBeforeYear_decomp a b c d hb' hcc hd', isLeap_decomp a b c d hb' hcc hd']
    obtain ⟨k1, k2, k3, k4, k5⟩ := monthDay_spec (decide (d = 3 ∧ (c ≠ 24 ∨ b = 3))) r4 (.inl (by omega))
    refine ⟨by omega, by omega, k1, k2, k3, k4⟩

theorem daysBeforeYear_succ (y : Nat) (hy : 1 ≤ y) :
    daysBeforeYear (y + 1) = daysBeforeYear y + 365 + (isLeap y).toNat := by
  obtain ⟨n, rfl⟩ : ∃ n, y = n + 1 := ⟨y - 1, by omega⟩
  rw [daysBeforeYear, daysBeforeYear]
  simp only [Nat.add_sub_cancel]
  have h4 : (n + 1) / 4 = n / 4 + if (n + 1) % 4 = 0 then 1 else 0 := by split <;> omega
  have h100 : (n + 1) / 100 = n / 100 + if (n + 1) % 100 = 0 then 1 else 0 := by split <;> omega
  have h400 : (n + 1) / 400 = n / 400 + if (n + 1) % 400 = 0 then 1 else 0 := by split <;> omega
  have e1 : (n + 1) % 100 = 0 → (n + 1) % 4 = 0 := by omega
  have e2 : (n + 1) % 400 = 0 → (n + 1) % 100 = 0 := by omega
  have hle : n / 100 ≤ n / 4 := by omega
  have hl : (isLeap (n + 1)).toNat =
      (if (n + 1) % 4 = 0 then 1 else 0) + (if (n + 1) % 400 = 0 then 1 else 0) - (if (n + 1) % 100 = 0 then 1 else 0) := by
    rw [isLeap]
    by_cases c1 : (n + 1) % 4 = 0 <;> by_cases c2 : (n + 1) % 100 = 0 <;> by_cases c3 : (n + 1) % 400 = 0 <;>
      simp [c1, c2, c3] <;> simp_all
  rw [h4, h100, h400, hl]
  generalize n / 4 = p at *
  generalize n / 100 = q at *
  generalize n / 400 = r at *
  by_cases c1 : (n + 1) % 4 = 0 <;> by_cases c2 : (n + 1) % 100 = 0 <;> by_cases c3 : (n + 1) % 400 = 0 <;>
    simp only [c1, c2, c3, if_true, if_false] <;> first | omega | (exfalso; simp_all)

/-- the year of a day number -/
theorem daysBeforeYear_lt (y m d : Nat) (hy : 1 ≤ y) (hm : 1 ≤ m) (hm2 : m ≤ 12) (hd : 1 ≤ d)
    (hd2 : d ≤ daysInMonth (isLeap y) m) :
    daysBeforeYear y < toOrdinal y m d ∧ toOrdinal y m d ≤ daysBeforeYear (y + 1) := by
  have key : ∀ leap : Bool, ∀ m, m < 13 → 1 ≤ m → daysBeforeMonth leap m + daysInMonth leap m ≤ 365 + leap.toNat := by
    decide
  have := key (isLeap y) m (by omega) hm
  have hyr := daysBeforeYear_succ y hy
  rw [toOrdinal]
  omega

theorem daysBeforeYear_mono (a b : Nat) (h : a ≤ b) : daysBeforeYear a ≤ daysBeforeYear b := by
  induction h with
  | refl => exact Nat.le_refl _
  | @step b hb ih =>
    refine Nat.le_trans ih ?_
    cases b with
    | zero => decide
    | succ n => rw [daysBeforeYear_succ (n + 1) (by omega)]; omega

theorem dayNumber_spec (w ord : Nat) (ho : ord = w / 86400 + 719163) (t : Tm)
    (hy : t.year = (fromOrdinal ord).1) (hm : t.month = (fromOrdinal ord).2.1)
    (hd : t.day = (fromOrdinal ord).2.2) (hh : t.hour = w % 86400 / 3600) (hmi : t.min = w % 3600 / 60)
    (hs : t.sec = w % 60) :
    timegm t = w ∧ 1 ≤ t.month ∧ t.month ≤ 12 ∧ 1 ≤ t.day ∧
    t.day ≤ daysInMonth (isLeap t.year) t.month ∧
    t.hour ≤ 23 ∧ t.min ≤ 59 ∧ t.sec ≤ 59 ∧ 1970 ≤ t.year ∧
    (w < 253402300800 → t.year ≤ 9999) := by
  obtain ⟨h1, h2, h3, h4, h5, h6⟩ := fromOrdinal_spec ord (by omega)
  rw [← hy, ← hm, ← hd] at h1
  rw [← hy] at h2
  rw [← hm] at h3 h4
  rw [← hd] at h5
  rw [← hy, ← hm, ← hd] at h6
  have hlt := daysBeforeYear_lt _ _ _ h2 h3 h4 h5 h6
  rw [h1] at hlt
  have e0 : epochOrd = 719163 := by rw [epochOrd]
  refine ⟨?_, h3, h4, h5, h6, by omega, by omega, by omega, ?_, ?_⟩
  · rw [timegm]
    have : (toOrdinal t.year t.month 1 : Int) - epochOrd + t.day - 1 = (w / 86400 : Nat) := by
      rw [e0]; rw [toOrdinal] at h1 ⊢; omega
    simp only [this]; omega
  · by_cases hc : 1970 ≤ t.year
    · exact hc
    · exfalso
      have := daysBeforeYear_mono (t.year + 1) 1970 (by omega)
      have h70 : daysBeforeYear 1970 = 719162 := by simp [daysBeforeYear]
      omega
  · intro hw
    by_cases hc : t.year ≤ 9999
    · exact hc
    · exfalso
      have := daysBeforeYear_mono 10000 t.year (by omega)
      have h10 : daysBeforeYear 10000 = 3652059 := by simp [daysBeforeYear]
      omega

theorem tmOf_spec (w ord : Nat) (ho : ord = w / 86400 + 719163) (d : Nat × Nat × Nat)
    (hd : d = fromOrdinal ord) :
    timegm (tmOf d w) = w ∧ 1 ≤ d.2.1 ∧ d.2.1 ≤ 12 ∧ 1 ≤ d.2.2 ∧
    d.2.2 ≤ daysInMonth (isLeap d.1) d.2.1 ∧ 1970 ≤ d.1 ∧ (w < 253402300800 → d.1 ≤ 9999) := by
  have := dayNumber_spec w ord ho (tmOf d w) (by rw [← hd]; rfl) (by rw [← hd]; rfl) (by rw [← hd]; rfl) rfl rfl rfl
  obtain ⟨h0, h1, h2, h3, h4, -, -, -, h8, h9⟩ := this
  exact ⟨h0, h1, h2, h3, h4, h8, h9⟩

/-! ### The text -/

def noDigits : ExtraDigits := fun _ => none

/-- an ASCII digit -/
def asciiDigit (c : Char) : Bool := 48 ≤ c.toNat ∧ c.toNat ≤ 57

theorem digitVal_ascii (X : ExtraDigits) (c : Char) (h : asciiDigit c = true) :
    digitVal X c = digitVal noDigits c := by
  simp only [asciiDigit, decide_eq_true_eq] at h
  simp [digitVal, h]

theorem pDay_ascii (X : ExtraDigits) (s : Str) (h : s.all asciiDigit = true) : pDay X s = pDay noDigits s := by
  match s, h with
  | [], _ => rfl
  | [a], _ => rfl
  | [a, b], h =>
    simp only [List.all_cons, Bool.and_eq_true] at h
    simp only [pDay, digitVal_ascii X b h.2.1]
  | _ :: _ :: _ :: _, _ => rfl

theorem pHour_ascii (X : ExtraDigits) (s : Str) (h : s.all asciiDigit = true) : pHour X s = pHour noDigits s := by
  match s, h with
  | [], _ => rfl
  | [a], h => simp only [List.all_cons, Bool.and_eq_true] at h; simp only [pHour, digitVal_ascii X a h.1]
  | [a, b], h =>
    simp only [List.all_cons, Bool.and_eq_true] at h
    simp only [pHour, digitVal_ascii X b h.2.1]
  | _ :: _ :: _ :: _, _ => rfl

theorem pMin_ascii (X : ExtraDigits) (s : Str) (h : s.all asciiDigit = true) : pMin X s = pMin noDigits s := by
  match s, h with
  | [], _ => rfl
  | [a], h => simp only [List.all_cons, Bool.and_eq_true] at h; simp only [pMin, digitVal_ascii X a h.1]
  | [a, b], h =>
    simp only [List.all_cons, Bool.and_eq_true] at h
    simp only [pMin, digitVal_ascii X b h.2.1]
  | _ :: _ :: _ :: _, _ => rfl

theorem pSec_ascii (X : ExtraDigits) (s : Str) (h : s.all asciiDigit = true) : pSec X s = pSec noDigits s := by
  match s, h with
  | [], _ => rfl
  | [a], h => simp only [List.all_cons, Bool.and_eq_true] at h; simp only [pSec, digitVal_ascii X a h.1]
  | [a, b], h =>
    simp only [List.all_cons, Bool.and_eq_true] at h
    simp only [pSec, digitVal_ascii X b h.2.1]
  | _ :: _ :: _ :: _, _ => rfl

theorem pad2_ascii : ∀ n, n < 100 → (pad2 n).all asciiDigit = true := by decide +kernel

theorem pMonth_pad2 : ∀ n, n < 13 → 1 ≤ n → pMonth (pad2 n) = some n := by decide
theorem pDay_pad2 (X : ExtraDigits) (n : Nat) (h : n < 32) (h1 : 1 ≤ n) : pDay X (pad2 n) = some n := by
  rw [pDay_ascii X _ (pad2_ascii n (by omega))]
  revert n; decide
theorem pHour_pad2 (X : ExtraDigits) (n : Nat) (h : n < 24) : pHour X (pad2 n) = some n := by
  rw [pHour_ascii X _ (pad2_ascii n (by omega))]
  revert n; decide
theorem pMin_pad2 (X : ExtraDigits) (n : Nat) (h : n < 60) : pMin X (pad2 n) = some n := by
  rw [pMin_ascii X _ (pad2_ascii n (by omega))]
  revert n; decide +kernel
theorem pSec_pad2 (X : ExtraDigits) (n : Nat) (h : n < 62) : pSec X (pad2 n) = some n := by
  rw [pSec_ascii X _ (pad2_ascii n (by omega))]
  revert n; decide +kernel

theorem digitChar (d : Nat) (h : d < 10) : (Char.ofNat (48 + d)).toNat = 48 + d := by
  revert d; decide

theorem natToStr_year (y : Nat) (h1 : 1000 ≤ y) (h2 : y ≤ 9999) :
    natToStr y = [Char.ofNat (48 + y / 1000), Char.ofNat (48 + y / 100 % 10), Char.ofNat (48 + y / 10 % 10),
      Char.ofNat (48 + y % 10)] := by
  obtain ⟨f, hf⟩ : ∃ f, y + 1 = f + 4 := ⟨y - 3, by omega⟩
  rw [natToStr, hf]
  rw [natDigitsAux, if_neg (by omega), natDigitsAux, if_neg (by omega), natDigitsAux, if_neg (by omega),
    natDigitsAux, if_pos (by omega)]
  have e1 : y / 10 / 10 / 10 % 10 = y / 1000 := by omega
  have e2 : y / 10 / 10 % 10 = y / 100 % 10 := by omega
  rw [e1, e2]

theorem pYear_str (X : ExtraDigits) (y : Nat) (h1 : 1000 ≤ y) (h2 : y ≤ 9999) : pYear X (natToStr y) = some y := by
  have hd : ∀ d, d < 10 → digitVal X (Char.ofNat (48 + d)) = some d := by
    intro d hd
    rw [digitVal, digitChar d hd, if_pos (by omega)]; simp
  rw [natToStr_year y h1 h2, pYear, hd _ (by omega), hd _ (by omega), hd _ (by omega), hd _ (by omega)]
  simp only [two, Option.some.injEq]
  omega

theorem year_ascii (y : Nat) (h1 : 1000 ≤ y) (h2 : y ≤ 9999) : (natToStr y).all asciiDigit = true := by
  rw [natToStr_year y h1 h2]
  have : ∀ d, d < 10 → asciiDigit (Char.ofNat (48 + d)) = true := by decide
  simp [this _ (show y / 1000 < 10 by omega), this _ (show y / 100 % 10 < 10 by omega),
    this _ (show y / 10 % 10 < 10 by omega), this _ (show y % 10 < 10 by omega)]

theorem cutBy_append (p : Char → Bool) (a : Str) (c : Char) (r : Str) (ha : a.all asciiDigit = true)
    (hp : ∀ x, asciiDigit x = true → p x = false) (hc : p c = true) : cutBy p (a ++ c :: r) = some (a, r) := by
  induction a with
  | nil => simp [cutBy, hc]
  | cons x t ih =>
    simp only [List.all_cons, Bool.and_eq_true] at ha
    rw [List.cons_append, cutBy, hp x ha.1, ih ha.2]; simp

theorem cutBy_some (p : Char → Bool) (s a r : Str) (h : cutBy p s = some (a, r)) :
    ∃ c, s = a ++ c :: r ∧ p c = true := by
  induction s generalizing a with
  | nil => simp [cutBy] at h
  | cons x t ih =>
    rw [cutBy] at h
    split at h
    · next hp => simp at h; obtain ⟨rfl, rfl⟩ := h; exact ⟨x, rfl, hp⟩
    · simp only [Option.map_eq_some_iff, Prod.mk.injEq, Prod.exists] at h
      obtain ⟨a', r', h1, rfl, rfl⟩ := h
      obtain ⟨c, hc, hp⟩ := ih a' h1
      exact ⟨c, by rw [hc]; rfl, hp⟩

theorem not_lit (x c : Char) (hx : asciiDigit x = true) (hc : asciiDigit c = false) : (x == c) = false := by
  simp only [beq_eq_false_iff_ne]
  rintro rfl
  rw [hx] at hc; simp at hc

theorem matchTime_strftime (X : ExtraDigits) (t : Tm) (hy : 1000 ≤ t.year) (hy2 : t.year ≤ 9999)
    (hm : 1 ≤ t.month) (hm2 : t.month ≤ 12) (hd : 1 ≤ t.day) (hd2 : t.day ≤ 31) (hh : t.hour ≤ 23)
    (hmi : t.min ≤ 59) (hs : t.sec ≤ 61) : matchTime X (strftime t) = some t := by
  have hp : ∀ c, asciiDigit c = false → ∀ x, asciiDigit x = true → (x == c) = false := fun c hc x hx => not_lit x c hx hc
  have hp2 : ∀ c d, asciiDigit c = false → asciiDigit d = false → ∀ x, asciiDigit x = true → (x == c || x == d) = false := by
    intro c d hc hd x hx
    simp [not_lit x c hx hc, not_lit x d hx hd]
  rw [matchTime, strftime]
  simp only [List.append_assoc, List.cons_append]
  rw [cutBy_append _ _ _ _ (year_ascii _ hy hy2) (hp _ (by decide)) (by decide)]
  simp only [Option.bind_eq_bind, Option.bind_some]
  rw [cutBy_append _ _ _ _ (pad2_ascii _ (by omega)) (hp _ (by decide)) (by decide)]
  simp only [Option.bind_some]
  rw [cutBy_append _ _ _ _ (pad2_ascii _ (by omega)) (hp2 _ _ (by decide) (by decide)) (by decide)]
  simp only [Option.bind_some]
  rw [cutBy_append _ _ _ _ (pad2_ascii _ (by omega)) (hp _ (by decide)) (by decide)]
  simp only [Option.bind_some]
  rw [cutBy_append _ _ _ _ (pad2_ascii _ (by omega)) (hp _ (by decide)) (by decide)]
  simp only [Option.bind_some]
  rw [cutBy_append _ _ _ _ (pad2_ascii _ (by omega)) (hp2 _ _ (by decide) (by decide)) (by decide)]
  simp only [Option.bind_some, pYear_str X _ hy hy2, pMonth_pad2 _ (show t.month < 13 by omega) hm,
    pDay_pad2 X _ (show t.day < 32 by omega) hd, pHour_pad2 X _ (show t.hour < 24 by omega),
    pMin_pad2 X _ (show t.min < 60 by omega), pSec_pad2 X _ (show t.sec < 62 by omega), if_true]

theorem daysInMonth_le (leap : Bool) (m : Nat) : daysInMonth leap m ≤ 31 := by
  rw [daysInMonth]; split
  · omega
  · unfold monthDays; split <;> omega

theorem strftime_length (t : Tm) (hy : 1000 ≤ t.year) (hy2 : t.year ≤ 9999) : (strftime t).length = 20 := by
  rw [strftime, natToStr_year _ hy hy2]
  simp [pad2]

theorem split_error (X : ExtraDigits) (s : Str) (e : PyErr) (h : split X s = .error e) : e = .valueError := by
  rw [split] at h
  rcases bind_eq_error.1 h with h | ⟨t, -, h⟩
  · rw [strptime] at h
    split at h
    · split at h <;> simp at h; exact h.symm
    · simp at h; exact h.symm
  · simp only at h
    split at h <;> simp at h; exact h.symm

end Nonce
