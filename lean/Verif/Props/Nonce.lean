import Verif.Lemmas.Nonce
import Verif.Spec.Calendar
/-! # Properties of nonces: C15, C16 -/

namespace Props
open Py Nonce Spec

/-! ## The model's calendar is the counted one -/

theorem monthLength_eq (y m : Nat) (h1 : 1 ≤ m) (h2 : m ≤ 12) : monthLength y m = daysInMonth (isLeap y) m := by
  have hl : leapYear y = isLeap y := by
    rw [leapYear, isLeap, decide_eq_decide]; omega
  rw [monthLength, monthLengths, hl]
  generalize isLeap y = leap
  have key : ∀ m, m < 13 → 1 ≤ m → ∀ leap : Bool,
      [31, if leap = true then 29 else 28, 31, 30, 31, 30, 31, 31, 30, 31, 30, 31].getD (m - 1) 0 =
        daysInMonth leap m := by decide
  exact key m (by omega) h1 leap

theorem dateOk_iff (y m d : Nat) : DateOk (y, m, d) ↔
    1 ≤ y ∧ 1 ≤ m ∧ m ≤ 12 ∧ 1 ≤ d ∧ d ≤ daysInMonth (isLeap y) m := by
  simp only [DateOk]
  constructor <;> rintro ⟨h1, h2, h3, h4, h5⟩ <;> refine ⟨h1, h2, h3, h4, ?_⟩
  · rwa [monthLength_eq y m h2 h3] at h5
  · rwa [monthLength_eq y m h2 h3]

theorem nextDay_ok (d : Date) (h : DateOk d) : DateOk (nextDay d) := by
  obtain ⟨y, m, d⟩ := d
  have h' := h
  obtain ⟨h1, h2, h3, h4, h5⟩ := h
  simp only [nextDay]
  split
  · exact ⟨h1, h2, h3, by omega, by omega⟩
  · have key : ∀ leap : Bool, ∀ m, m < 13 → 1 ≤ m → 1 ≤ daysInMonth leap m := by decide
    split
    · rw [dateOk_iff]; exact ⟨h1, by omega, by omega, by omega, key _ _ (by omega) (by omega)⟩
    · rw [dateOk_iff]; exact ⟨by omega, by omega, by omega, by omega, key _ _ (by omega) (by omega)⟩

def ordOf (d : Date) : Nat := toOrdinal d.1 d.2.1 d.2.2

theorem nextDay_ord (d : Date) (h : DateOk d) : ordOf (nextDay d) = ordOf d + 1 := by
  obtain ⟨y, m, d⟩ := d
  rw [dateOk_iff] at h
  obtain ⟨h1, h2, h3, h4, h5⟩ := h
  simp only [nextDay, monthLength_eq y m h2 h3]
  split
  · simp only [ordOf, toOrdinal]; omega
  · have hd : d = daysInMonth (isLeap y) m := by omega
    split
    · next hm =>
      have key : ∀ leap : Bool, ∀ m, m < 12 → 1 ≤ m →
          daysBeforeMonth leap (m + 1) = daysBeforeMonth leap m + daysInMonth leap m := by decide
      have := key (isLeap y) m hm h2
      simp only [ordOf, toOrdinal]; omega
    · have hm : m = 12 := by omega
      subst hm
      have hs := daysBeforeYear_succ y h1
      have key : ∀ leap : Bool, daysBeforeMonth leap 12 + daysInMonth leap 12 = 365 + leap.toNat := by decide
      have := key (isLeap y)
      have h1' : ∀ leap : Bool, daysBeforeMonth leap 1 = 0 := by decide
      simp only [ordOf, toOrdinal, h1']; omega

theorem ordOf_inj (a b : Date) (ha : DateOk a) (hb : DateOk b) (h : ordOf a = ordOf b) : a = b := by
  obtain ⟨y, m, d⟩ := a
  obtain ⟨y', m', d'⟩ := b
  rw [dateOk_iff] at ha hb
  obtain ⟨a1, a2, a3, a4, a5⟩ := ha
  obtain ⟨b1, b2, b3, b4, b5⟩ := hb
  simp only [ordOf] at h
  have hy : y = y' := by
    have l1 := daysBeforeYear_lt y m d a1 a2 a3 a4 a5
    have l2 := daysBeforeYear_lt y' m' d' b1 b2 b3 b4 b5
    rcases Nat.lt_trichotomy y y' with hlt | heq | hgt
    · have := daysBeforeYear_mono (y + 1) y' hlt; omega
    · exact heq
    · have := daysBeforeYear_mono (y' + 1) y hgt; omega
  subst hy
  simp only [toOrdinal] at h
  have key : ∀ leap : Bool, ∀ m, m < 13 → 1 ≤ m → ∀ m', m' < 13 → m < m' →
      daysBeforeMonth leap m + daysInMonth leap m ≤ daysBeforeMonth leap m' := by decide
  have hm : m = m' := by
    rcases Nat.lt_trichotomy m m' with hlt | heq | hgt
    · have := key (isLeap y) m (by omega) a2 m' (by omega) hlt; omega
    · exact heq
    · have := key (isLeap y) m' (by omega) b2 m (by omega) hgt; omega
  subst hm
  have : d = d' := by omega
  rw [this]

theorem dateAfter_spec (n : Nat) : DateOk (dateAfter n) ∧ ordOf (dateAfter n) = n + 719163 := by
  induction n with
  | zero =>
    refine ⟨by decide, ?_⟩
    simp [dateAfter, ordOf, toOrdinal, daysBeforeYear, daysBeforeMonth, monthStart]
  | succ n ih =>
    rw [dateAfter]
    refine ⟨nextDay_ok _ ih.1, ?_⟩
    have := nextDay_ord _ ih.1
    omega

theorem fromOrdinal_dateAfter (n ord : Nat) (h : ord = n + 719163) : fromOrdinal ord = dateAfter n := by
  obtain ⟨h1, h2, h3, h4, h5, h6⟩ := fromOrdinal_spec ord (by omega)
  refine ordOf_inj _ _ ?_ (dateAfter_spec n).1 ?_
  · exact (dateOk_iff (fromOrdinal ord).1 (fromOrdinal ord).2.1 (fromOrdinal ord).2.2).2 ⟨h2, h3, h4, h5, h6⟩
  · rw [(dateAfter_spec n).2, ordOf, h1, h]

theorem pad2_eq (n : Nat) : pad2 n = digits2 n := rfl

theorem year_eq (y : Nat) (h1 : 1000 ≤ y) (h2 : y ≤ 9999) : natToStr y = digits4 y := by
  rw [natToStr_year y h1 h2, digits4, digits2, digits2]
  have e1 : y / 100 / 10 = y / 1000 := by omega
  have e2 : y % 100 / 10 = y / 10 % 10 := by omega
  have e3 : y % 100 % 10 = y % 10 := by omega
  rw [e1, e2, e3]; rfl

theorem mkNonce_date (w : Nat) (salt : Str) : mkNonce w salt = strftime (tmOf (dateAfter (w / 86400)) w) ++ salt := by
  have : ∀ ord, ord = w / 86400 + 719163 → tmOf (fromOrdinal ord) w = tmOf (dateAfter (w / 86400)) w := by
    intro ord ho; rw [fromOrdinal_dateAfter _ _ ho]
  rw [mkNonce, gmtime, this _ (by rw [epochOrd])]

theorem date_spec (w : Nat) : ∃ d, dateAfter (w / 86400) = d ∧
    timegm (tmOf d w) = w ∧ 1 ≤ d.2.1 ∧ d.2.1 ≤ 12 ∧ 1 ≤ d.2.2 ∧
    d.2.2 ≤ daysInMonth (isLeap d.1) d.2.1 ∧ 1970 ≤ d.1 ∧ (w < 253402300800 → d.1 ≤ 9999) := by
  obtain ⟨ord, ho⟩ : ∃ ord, ord = w / 86400 + 719163 := ⟨_, rfl⟩
  exact ⟨_, rfl, tmOf_spec w ord ho _ (fromOrdinal_dateAfter _ _ ho).symm⟩

/-! ## C15 -/

/-- C15: the nonce made for a time splits back into exactly that time and the salt. -/
theorem c15_roundtrip (X : ExtraDigits) (w : Nat) (salt : Str) (h : w < 253402300800) :
    split X (mkNonce w salt) = .ok ((w : Int), salt) := by
  rw [mkNonce_date]
  obtain ⟨d, hd, g0, g1, g2, g3, g4, g8, g9⟩ := date_spec w
  rw [hd]
  have g9 := g9 h
  obtain ⟨t, ht⟩ : ∃ t, t = tmOf d w := ⟨_, rfl⟩
  have e1 : t.year = d.1 := by rw [ht]; rfl
  have e2 : t.month = d.2.1 := by rw [ht]; rfl
  have e3 : t.day = d.2.2 := by rw [ht]; rfl
  have e4 : t.hour = w % 86400 / 3600 := by rw [ht]; rfl
  have e5 : t.min = w % 3600 / 60 := by rw [ht]; rfl
  have e6 : t.sec = w % 60 := by rw [ht]; rfl
  rw [← ht] at g0 ⊢
  have hlen := strftime_length t (by omega) (by omega)
  have hdm := daysInMonth_le (isLeap d.1) d.2.1
  have hm := matchTime_strftime X t (by omega) (by omega) (by omega) (by omega) (by omega) (by omega) (by omega)
    (by omega) (by omega)
  have hv : validDate t.year t.month t.day = true := by
    rw [e1, e2, e3]; simp only [validDate, decide_eq_true_eq]; omega
  have htk : (strftime t ++ salt).take timeStrLen = strftime t := by
    rw [timeStrLen, ← hlen, List.take_left]
  have hr : (strftime t ++ salt).drop timeStrLen = salt := by
    rw [timeStrLen, ← hlen, List.drop_left]
  rw [split, htk, hr, strptime, hm]
  simp only [hv, if_true, ok_bind, g0]
  rw [if_neg (by omega)]; rfl

/-- C15: the text is the ISO 8601 time in UTC, counted by days from 1970-01-01, then the salt. -/
theorem c15_text (w : Nat) (salt : Str) (h : w < 253402300800) :
    mkNonce w salt = isoTime (w / 86400) (w % 86400) ++ salt := by
  rw [mkNonce_date, isoTime]
  obtain ⟨d, hd, g0, g1, g2, g3, g4, g8, g9⟩ := date_spec w
  rw [hd]
  have g9 := g9 h
  have e1 : w % 3600 / 60 = w % 86400 / 60 % 60 := by omega
  have e2 : w % 60 = w % 86400 % 60 := by omega
  simp only [strftime, tmOf, pad2_eq, year_eq d.1 (by omega) g9, e1]
  rw [← e2]

/-- C15: any existing date from 1970 on and any time of day, written in the canonical form, is accepted and
    read as the number of seconds since 1970-01-01; equal dates are at equal distance. -/
theorem c15_reads_canonical (X : ExtraDigits) (n s : Nat) (salt : Str) (hn : n < 2932897) (hs : s < 86400) :
    split X (isoTime n s ++ salt) = .ok ((86400 * n + s : Nat), salt) := by
  have := c15_text (86400 * n + s) salt (by omega)
  have e1 : (86400 * n + s) / 86400 = n := by omega
  have e2 : (86400 * n + s) % 86400 = s := by omega
  rw [e1, e2] at this
  rw [← this, c15_roundtrip X _ salt (by omega)]

/-- C15: no nonce is read as a negative time, and whatever cannot be read is a ValueError. -/
theorem c15_errors (X : ExtraDigits) (nonce : Str) :
    (∃ stamp, split X nonce = .ok (stamp, nonce.drop 20) ∧ 0 ≤ stamp) ∨ split X nonce = .error .valueError := by
  cases h : split X nonce with
  | error e => right; rw [split_error X nonce e h]
  | ok p =>
    left
    rw [split] at h
    obtain ⟨t, -, h⟩ := bind_eq_ok.1 h
    simp only at h
    split at h
    · simp at h
    · next hge => simp at h; subst h; exact ⟨_, rfl, by omega⟩

/-- C15: text that does not begin with a time is refused: the first twenty characters of an accepted nonce
    have a hyphen-separated date, `T`, a colon-separated time and `Z`, and nothing else; the letters may be
    lower case. -/
theorem c15_accepted_shape (X : ExtraDigits) (nonce : Str) (r : Int × Str) (h : split X nonce = .ok r) :
    ∃ y m d hh mi s : Str, ∃ t z : Char, nonce.take 20 =
        y ++ '-' :: m ++ '-' :: d ++ t :: hh ++ ':' :: mi ++ ':' :: s ++ [z] ∧
      (t = 'T' ∨ t = 't') ∧ (z = 'Z' ∨ z = 'z') ∧ y.length = 4 ∧
      (∀ x ∈ [m, d, hh, mi, s], x.length = 1 ∨ x.length = 2) := by
  rw [split] at h
  obtain ⟨tm, h, -⟩ := bind_eq_ok.1 h
  rw [strptime] at h
  split at h
  · next tm' hm =>
    rw [matchTime] at hm
    simp only [Option.bind_eq_bind, Option.bind_eq_some_iff] at hm
    obtain ⟨⟨y, s1⟩, h1, ⟨m, s2⟩, h2, ⟨d, s3⟩, h3, ⟨hh, s4⟩, h4, ⟨mi, s5⟩, h5, ⟨se, s6⟩, h6, yv, p1, mv, p2, dv, p3,
      hv, p4, miv, p5, sv, p6, hm⟩ := hm
    obtain ⟨c1, q1, r1⟩ := cutBy_some _ _ _ _ h1
    obtain ⟨c2, q2, r2⟩ := cutBy_some _ _ _ _ h2
    obtain ⟨c3, q3, r3⟩ := cutBy_some _ _ _ _ h3
    obtain ⟨c4, q4, r4⟩ := cutBy_some _ _ _ _ h4
    obtain ⟨c5, q5, r5⟩ := cutBy_some _ _ _ _ h5
    obtain ⟨c6, q6, r6⟩ := cutBy_some _ _ _ _ h6
    simp only at q2 q3 q4 q5 q6 p1 p2 p3 p4 p5 p6
    simp only [beq_iff_eq, Bool.or_eq_true] at r1 r2 r3 r4 r5 r6
    subst r1 r2 r4 r5
    split at hm
    · next he =>
      subst he
      refine ⟨y, m, d, hh, mi, se, c3, c6, ?_, r3, r6, ?_, ?_⟩
      · have : nonce.take timeStrLen = nonce.take 20 := rfl
        rw [← this, q1, q2, q3, q4, q5, q6]; simp
      · rw [pYear.eq_def] at p1
        split at p1
        · rfl
        · simp at p1
      · intro x hx
        simp only [List.mem_cons, List.not_mem_nil, or_false] at hx
        rcases hx with rfl | rfl | rfl | rfl | rfl
        · rw [pMonth.eq_def] at p2; split at p2 <;> first | (simp; done) | simp at p2
        · rw [pDay.eq_def] at p3; split at p3 <;> first | (simp; done) | simp at p3
        · rw [pHour.eq_def] at p4; split at p4 <;> first | (simp; done) | simp at p4
        · rw [pMin.eq_def] at p5; split at p5 <;> first | (simp; done) | simp at p5
        · rw [pSec.eq_def] at p6; split at p6 <;> first | (simp; done) | simp at p6
    · simp at hm
  · simp at h

example : mkNonce 1700000000 t!"abc" = t!"2023-11-14T22:13:20Zabc" := by decide +kernel
example : split (fun _ => none) t!"2023-11-14T22:13:20Zabc" = .ok (1700000000, t!"abc") := by decide +kernel
example : split (fun _ => none) t!"1969-12-31T23:59:59Z" = .error .valueError := by decide +kernel
example : split (fun _ => none) t!"2023-02-29T00:00:00Z" = .error .valueError := by decide +kernel

/-- The reader is more lenient than the writer: two different texts are the same time. -/
theorem c15_not_canonical :
    split (fun _ => none) t!"2008-2-9T3:9:1z" = split (fun _ => none) t!"2008-02-09T03:09:01Z" ∧
    split (fun _ => none) t!"2008-02-09T03:08:61Z" = split (fun _ => none) t!"2008-02-09T03:09:01Z" := by
  decide +kernel

/-! ## C16 -/

/-- C16: a readable nonce is accepted exactly when its time is within the skew of now, both ends included;
    an unreadable one never.  Times are counted in `1/scale` seconds. -/
theorem c16_window (X : ExtraDigits) (scale : Nat) (skew now : Int) (nonce : Str) :
    checkTimestamp X scale skew now nonce = true ↔
      ∃ stamp salt, split X nonce = .ok (stamp, salt) ∧ now - skew ≤ stamp * scale ∧ stamp * scale ≤ now + skew := by
  rw [checkTimestamp]
  cases h : split X nonce with
  | error e => simp
  | ok p => obtain ⟨a, b⟩ := p; simp

/-- C16: for nonces the library makes, with the default skew of five hours and a clock in seconds. -/
theorem c16_own_nonce (X : ExtraDigits) (w : Nat) (salt : Str) (now : Int) (h : w < 253402300800) :
    checkTimestamp X 1 SKEW now (mkNonce w salt) = true ↔ ((w : Int) - now).natAbs ≤ 18000 := by
  rw [c16_window]
  simp only [c15_roundtrip X w salt h, Except.ok.injEq, Prod.mk.injEq]
  have hs : SKEW = 18000 := by decide
  rw [hs]
  constructor
  · rintro ⟨a, b, ⟨rfl, rfl⟩, h1, h2⟩; omega
  · intro h; exact ⟨_, _, ⟨rfl, rfl⟩, by omega, by omega⟩

example : checkTimestamp (fun _ => none) 1 SKEW (1700000000 + 18000) t!"2023-11-14T22:13:20Zabc" = true ∧
    checkTimestamp (fun _ => none) 1 SKEW (1700000000 + 18001) t!"2023-11-14T22:13:20Zabc" = false := by
  decide +kernel

end Props
