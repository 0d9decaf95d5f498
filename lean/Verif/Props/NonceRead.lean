import Verif.Props.Nonce
/-! # C15: exactly which nonces are accepted, and as what time -/

namespace Props
open Py Nonce Spec

theorem rng_some {a b n : Nat} {c : Char} (X : ExtraDigits) (hb : b ≤ 9) (h : rng a b c = some n) :
    digitVal X c = some n ∧ a ≤ n ∧ n ≤ b := by
  unfold rng at h
  split at h
  · next hc =>
    obtain rfl := Option.some.inj h
    refine ⟨?_, by omega, by omega⟩
    rw [digitVal, if_pos (by omega)]
  · cases h

theorem digitVal_lt {X : ExtraDigits} (hX : ∀ c n, X c = some n → n ≤ 9) {c : Char} {n : Nat} (h : digitVal X c = some n) :
    n ≤ 9 := by
  unfold digitVal at h
  split at h
  · obtain rfl := Option.some.inj h; omega
  · exact hX _ _ h

theorem two_some {a b : Option Nat} {n : Nat} (h : two a b = some n) : ∃ x y, a = some x ∧ b = some y ∧ n = 10 * x + y := by
  unfold two at h
  split at h
  · exact ⟨_, _, rfl, rfl, (Option.some.inj h).symm⟩
  · cases h

theorem field_one {X : ExtraDigits} {a : Char} {x : Nat} (h : digitVal X a = some x) : Field X [a] x :=
  ⟨⟨[x], by simp [h], by simp⟩, .inl rfl⟩

theorem field_two {X : ExtraDigits} {a b : Char} {x y : Nat} (h : digitVal X a = some x) (h' : digitVal X b = some y) :
    Field X [a, b] (10 * x + y) :=
  ⟨⟨[x, y], by simp [h, h'], by simp⟩, .inr rfl⟩

theorem pYear_read {X : ExtraDigits} {s : Str} {n : Nat} (h : pYear X s = some n) : Numeral X s n ∧ s.length = 4 := by
  rw [pYear.eq_def] at h
  split at h
  · obtain ⟨x, d, h1, hd, rfl⟩ := two_some h
    obtain ⟨y, c, h2, hc, rfl⟩ := two_some h1
    obtain ⟨a, b, ha, hb, rfl⟩ := two_some h2
    exact ⟨⟨[a, b, c, d], by simp [ha, hb, hc, hd], by simp⟩, rfl⟩
  · cases h

theorem pMonth_read (X : ExtraDigits) {s : Str} {n : Nat} (h : pMonth s = some n) : Field X s n := by
  rw [pMonth.eq_def] at h
  split at h
  · exact field_one (rng_some X (by omega) h).1
  · rcases Option.or_eq_some_iff.1 h with h | ⟨-, h⟩
    all_goals
      obtain ⟨x, y, h1, h2, rfl⟩ := two_some h
      exact field_two (rng_some X (by omega) h1).1 (rng_some X (by omega) h2).1
  · cases h

theorem pDay_read {X : ExtraDigits} {s : Str} {n : Nat} (h : pDay X s = some n) :
    Field X s n ∨ ∃ c, s = [' ', c] ∧ Field X [c] n := by
  rw [pDay.eq_def] at h
  split at h
  · exact .inl (field_one (rng_some X (by omega) h).1)
  · next a b =>
    split at h
    · next ha => exact .inr ⟨b, by rw [ha], field_one (rng_some X (by omega) h).1⟩
    · left
      rcases Option.or_eq_some_iff.1 h with h | ⟨-, h⟩
      · obtain ⟨x, y, h1, h2, rfl⟩ := two_some h
        exact field_two (rng_some X (by omega) h1).1 (rng_some X (by omega) h2).1
      · rcases Option.or_eq_some_iff.1 h with h | ⟨-, h⟩
        · obtain ⟨x, y, h1, h2, rfl⟩ := two_some h
          exact field_two (rng_some X (by omega) h1).1 h2
        · obtain ⟨x, y, h1, h2, rfl⟩ := two_some h
          exact field_two (rng_some X (by omega) h1).1 (rng_some X (by omega) h2).1
  · cases h

theorem pHour_read {X : ExtraDigits} (hX : ∀ c n, X c = some n → n ≤ 9) {s : Str} {n : Nat} (h : pHour X s = some n) :
    Field X s n ∧ n ≤ 23 := by
  rw [pHour.eq_def] at h
  split at h
  · exact ⟨field_one h, by have := digitVal_lt hX h; omega⟩
  · rcases Option.or_eq_some_iff.1 h with h | ⟨-, h⟩
    · obtain ⟨x, y, h1, h2, rfl⟩ := two_some h
      obtain ⟨h1, -, g1⟩ := rng_some X (by omega) h1
      obtain ⟨h2, -, g2⟩ := rng_some X (by omega) h2
      exact ⟨field_two h1 h2, by omega⟩
    · obtain ⟨x, y, h1, h2, rfl⟩ := two_some h
      obtain ⟨h1, -, g1⟩ := rng_some X (by omega) h1
      exact ⟨field_two h1 h2, by have := digitVal_lt hX h2; omega⟩
  · cases h

theorem pMin_read {X : ExtraDigits} (hX : ∀ c n, X c = some n → n ≤ 9) {s : Str} {n : Nat} (h : pMin X s = some n) :
    Field X s n ∧ n ≤ 59 := by
  rw [pMin.eq_def] at h
  split at h
  · exact ⟨field_one h, by have := digitVal_lt hX h; omega⟩
  · obtain ⟨x, y, h1, h2, rfl⟩ := two_some h
    obtain ⟨h1, -, g1⟩ := rng_some X (by omega) h1
    exact ⟨field_two h1 h2, by have := digitVal_lt hX h2; omega⟩
  · cases h

theorem pSec_read {X : ExtraDigits} (hX : ∀ c n, X c = some n → n ≤ 9) {s : Str} {n : Nat} (h : pSec X s = some n) :
    Field X s n ∧ n ≤ 61 := by
  rw [pSec.eq_def] at h
  split at h
  · exact ⟨field_one h, by have := digitVal_lt hX h; omega⟩
  · rcases Option.or_eq_some_iff.1 h with h | ⟨-, h⟩
    · obtain ⟨x, y, h1, h2, rfl⟩ := two_some h
      obtain ⟨h1, -, g1⟩ := rng_some X (by omega) h1
      obtain ⟨h2, -, g2⟩ := rng_some X (by omega) h2
      exact ⟨field_two h1 h2, by omega⟩
    · obtain ⟨x, y, h1, h2, rfl⟩ := two_some h
      obtain ⟨h1, -, g1⟩ := rng_some X (by omega) h1
      exact ⟨field_two h1 h2, by have := digitVal_lt hX h2; omega⟩
  · cases h

/-! The other way, for ASCII digits. -/

theorem noDigit {c : Char} {n : Nat} (h : digitVal noDigits c = some n) : n < 10 ∧ c = Char.ofNat (48 + n) := by
  unfold digitVal noDigits at h
  split at h
  · next hc =>
    obtain rfl := Option.some.inj h
    refine ⟨by omega, ?_⟩
    rw [show 48 + (c.toNat - 48) = c.toNat by omega, Char.ofNat_toNat]
  · cases h

theorem field_ascii {s : Str} {n : Nat} (h : Field noDigits s n) :
    (n < 10 ∧ s = [Char.ofNat (48 + n)]) ∨ ∃ a b, a < 10 ∧ b < 10 ∧ n = 10 * a + b ∧ s = [Char.ofNat (48 + a), Char.ofNat (48 + b)] := by
  obtain ⟨⟨ds, h1, h2⟩, h3⟩ := h
  rcases h3 with h3 | h3
  · match s, ds, h1, h3 with
    | [a], [x], h1, _ =>
      simp only [List.map_cons, List.map_nil, List.cons.injEq, and_true] at h1
      obtain ⟨g1, g2⟩ := noDigit h1
      simp only [List.foldl] at h2
      obtain rfl : x = n := by omega
      exact .inl ⟨g1, by rw [g2]⟩
    | [_], [], h1, _ => cases h1
    | [_], _ :: _ :: _, h1, _ => simp at h1
  · match s, ds, h1, h3 with
    | [a, b], [x, y], h1, _ =>
      simp only [List.map_cons, List.map_nil, List.cons.injEq, and_true] at h1
      obtain ⟨g1, g2⟩ := noDigit h1.1
      obtain ⟨g3, g4⟩ := noDigit h1.2
      simp only [List.foldl] at h2
      exact .inr ⟨x, y, g1, g3, by omega, by rw [g2, g4]⟩
    | [_, _], [], h1, _ => cases h1
    | [_, _], [_], h1, _ => simp at h1
    | [_, _], _ :: _ :: _ :: _, h1, _ => simp at h1

theorem field_all {s : Str} {n : Nat} (h : Field noDigits s n) : s.all asciiDigit = true := by
  have key : ∀ d, d < 10 → asciiDigit (Char.ofNat (48 + d)) = true := by decide
  rcases field_ascii h with ⟨h1, rfl⟩ | ⟨a, b, ha, hb, -, rfl⟩
  · simp [key n h1]
  · simp [key a ha, key b hb]

theorem pMonth_field {s : Str} {n : Nat} (h : Field noDigits s n) (h1 : 1 ≤ n) (h2 : n ≤ 12) : pMonth s = some n := by
  rcases field_ascii h with ⟨h3, rfl⟩ | ⟨a, b, ha, hb, rfl, rfl⟩
  · have : ∀ n, n < 10 → 1 ≤ n → pMonth [Char.ofNat (48 + n)] = some n := by decide
    exact this n h3 h1
  · have : ∀ a, a < 10 → ∀ b, b < 10 → 1 ≤ 10 * a + b → 10 * a + b ≤ 12 →
        pMonth [Char.ofNat (48 + a), Char.ofNat (48 + b)] = some (10 * a + b) := by decide +kernel
    exact this a ha b hb h1 h2

theorem pDay_field (X : ExtraDigits) {s : Str} {n : Nat} (h : Field noDigits s n ∨ ∃ c, s = [' ', c] ∧ Field noDigits [c] n)
    (h1 : 1 ≤ n) (h2 : n ≤ 31) : pDay X s = some n := by
  rcases h with h | ⟨c, rfl, h⟩
  · rw [pDay_ascii X s (field_all h)]
    rcases field_ascii h with ⟨h3, rfl⟩ | ⟨a, b, ha, hb, rfl, rfl⟩
    · have : ∀ n, n < 10 → 1 ≤ n → pDay noDigits [Char.ofNat (48 + n)] = some n := by decide
      exact this n h3 h1
    · have : ∀ a, a < 10 → ∀ b, b < 10 → 1 ≤ 10 * a + b → 10 * a + b ≤ 31 →
          pDay noDigits [Char.ofNat (48 + a), Char.ofNat (48 + b)] = some (10 * a + b) := by decide +kernel
      exact this a ha b hb h1 h2
  · rcases field_ascii h with ⟨h3, hc⟩ | ⟨a, b, ha, hb, -, hc⟩
    · obtain rfl := (List.cons.inj hc).1
      have : ∀ n, n < 10 → 1 ≤ n → pDay noDigits [' ', Char.ofNat (48 + n)] = some n := by decide
      have hx : pDay X [' ', Char.ofNat (48 + n)] = pDay noDigits [' ', Char.ofNat (48 + n)] := rfl
      rw [hx, this n h3 h1]
    · simp at hc

theorem pHour_field (X : ExtraDigits) {s : Str} {n : Nat} (h : Field noDigits s n) (h2 : n ≤ 23) : pHour X s = some n := by
  rw [pHour_ascii X s (field_all h)]
  rcases field_ascii h with ⟨h3, rfl⟩ | ⟨a, b, ha, hb, rfl, rfl⟩
  · have : ∀ n, n < 10 → pHour noDigits [Char.ofNat (48 + n)] = some n := by decide
    exact this n h3
  · have : ∀ a, a < 10 → ∀ b, b < 10 → 10 * a + b ≤ 23 →
        pHour noDigits [Char.ofNat (48 + a), Char.ofNat (48 + b)] = some (10 * a + b) := by decide +kernel
    exact this a ha b hb h2

theorem pMin_field (X : ExtraDigits) {s : Str} {n : Nat} (h : Field noDigits s n) (h2 : n ≤ 59) : pMin X s = some n := by
  rw [pMin_ascii X s (field_all h)]
  rcases field_ascii h with ⟨h3, rfl⟩ | ⟨a, b, ha, hb, rfl, rfl⟩
  · have : ∀ n, n < 10 → pMin noDigits [Char.ofNat (48 + n)] = some n := by decide
    exact this n h3
  · have : ∀ a, a < 10 → ∀ b, b < 10 → 10 * a + b ≤ 59 →
        pMin noDigits [Char.ofNat (48 + a), Char.ofNat (48 + b)] = some (10 * a + b) := by decide +kernel
    exact this a ha b hb h2

theorem pSec_field (X : ExtraDigits) {s : Str} {n : Nat} (h : Field noDigits s n) (h2 : n ≤ 61) : pSec X s = some n := by
  rw [pSec_ascii X s (field_all h)]
  rcases field_ascii h with ⟨h3, rfl⟩ | ⟨a, b, ha, hb, rfl, rfl⟩
  · have : ∀ n, n < 10 → pSec noDigits [Char.ofNat (48 + n)] = some n := by decide
    exact this n h3
  · have : ∀ a, a < 10 → ∀ b, b < 10 → 10 * a + b ≤ 61 →
        pSec noDigits [Char.ofNat (48 + a), Char.ofNat (48 + b)] = some (10 * a + b) := by decide +kernel
    exact this a ha b hb h2

theorem pYear_field (X : ExtraDigits) {s : Str} {n : Nat} (h : Numeral noDigits s n) (hl : s.length = 4) :
    pYear X s = some n ∧ s.all asciiDigit = true ∧ n ≤ 9999 := by
  obtain ⟨ds, h1, h2⟩ := h
  match s, ds, h1, hl with
  | [a, b, c, d], [w, x, y, z], h1, _ =>
    simp only [List.map_cons, List.map_nil, List.cons.injEq, and_true] at h1
    obtain ⟨e1, e2, e3, e4⟩ := h1
    have key : ∀ c n, digitVal noDigits c = some n → asciiDigit c = true ∧ digitVal X c = some n ∧ n ≤ 9 := by
      intro c n h
      have ha : asciiDigit c = true := by
        have k : ∀ d, d < 10 → asciiDigit (Char.ofNat (48 + d)) = true := by decide
        obtain ⟨g1, g2⟩ := noDigit h
        rw [g2]; exact k n g1
      exact ⟨ha, (digitVal_ascii X c ha).trans h, by have := (noDigit h).1; omega⟩
    obtain ⟨a1, a2, a3⟩ := key _ _ e1
    obtain ⟨b1, b2, b3⟩ := key _ _ e2
    obtain ⟨c1, c2, c3⟩ := key _ _ e3
    obtain ⟨d1, d2, d3⟩ := key _ _ e4
    simp only [List.foldl] at h2
    refine ⟨?_, by simp [a1, b1, c1, d1], by omega⟩
    simp only [pYear, a2, b2, c2, d2, two, Option.some.injEq]
    omega
  | [_, _, _, _], [], h1, _ => cases h1
  | [_, _, _, _], [_], h1, _ => simp at h1
  | [_, _, _, _], [_, _], h1, _ => simp at h1
  | [_, _, _, _], [_, _, _], h1, _ => simp at h1
  | [_, _, _, _], _ :: _ :: _ :: _ :: _ :: _, h1, _ => simp at h1

/-- seconds since 1970-01-01, counted from the date's day number since year 1 -/
theorem timegm_ord (t : Tm) (h : 1 ≤ t.day) : timegm t =
    86400 * ((ordOf (t.year, t.month, t.day) : Int) - 719163) + (3600 * t.hour + 60 * t.min + t.sec) := by
  simp only [timegm, ordOf, toOrdinal, epochOrd]
  omega

theorem dateAfter_of (d : Date) (n : Nat) (h : DateOk d) (h2 : ordOf d = n + 719163) : dateAfter n = d :=
  ordOf_inj _ _ (dateAfter_spec n).1 h (by rw [(dateAfter_spec n).2, h2])

theorem ordOf_last : ordOf (1969, 12, 31) = 719162 := by decide +kernel

/-- the seconds since 1970-01-01 of a time of day on a date; of the days before it, only the leap seconds of the last one
    count as not negative -/
theorem stamp_iff (t : Tm) (hd : DateOk (t.year, t.month, t.day)) (hh : t.hour ≤ 23) (hmi : t.min ≤ 59) (hs : t.sec ≤ 61) :
    0 ≤ timegm t ↔ (∃ n, dateAfter n = (t.year, t.month, t.day) ∧
        timegm t = (86400 * n + (3600 * t.hour + 60 * t.min + t.sec) : Nat)) ∨
      (t.year, t.month, t.day) = (1969, 12, 31) ∧ t.hour = 23 ∧ t.min = 59 ∧ 60 ≤ t.sec ∧ timegm t = (t.sec - 60 : Nat) := by
  have ht := timegm_ord t hd.2.2.2.1
  constructor
  · intro h0
    rw [ht] at h0 ⊢
    by_cases ho : 719163 ≤ ordOf (t.year, t.month, t.day)
    · obtain ⟨n, hn⟩ := Nat.exists_eq_add_of_le ho
      rw [Nat.add_comm] at hn
      exact .inl ⟨n, dateAfter_of _ n hd hn, by rw [hn]; omega⟩
    · have e : ordOf (t.year, t.month, t.day) = 719162 := by omega
      have := ordOf_inj _ _ hd (by decide) (e.trans ordOf_last.symm)
      refine .inr ⟨this, ?_⟩
      rw [e] at h0 ⊢
      refine ⟨by omega, by omega, by omega, by omega⟩
  · rintro (⟨n, -, h⟩ | ⟨-, -, -, -, h⟩) <;> rw [h] <;> omega

theorem matchTime_read {X : ExtraDigits} (hX : ∀ c n, X c = some n → n ≤ 9) {s : Str} {t : Tm} (h : strptime X s = .ok t) :
    IsNonceTime X s (t.year, t.month, t.day) t.hour t.min t.sec := by
  rw [strptime] at h
  split at h
  · next tm' hm =>
    split at h
    · next hv =>
      obtain rfl := Except.ok.inj h
      rw [matchTime] at hm
      simp only [Option.bind_eq_bind, Option.bind_eq_some_iff] at hm
      obtain ⟨⟨y, s1⟩, h1, ⟨m, s2⟩, h2, ⟨d, s3⟩, h3, ⟨hh, s4⟩, h4, ⟨mi, s5⟩, h5, ⟨se, s6⟩, h6, yv, p1, mv, p2, dv, p3,
        hv', p4, miv, p5, sv, p6, hm⟩ := hm
      obtain ⟨c1, q1, r1⟩ := cutBy_some _ _ _ _ h1
      obtain ⟨c2, q2, r2⟩ := cutBy_some _ _ _ _ h2
      obtain ⟨c3, q3, r3⟩ := cutBy_some _ _ _ _ h3
      obtain ⟨c4, q4, r4⟩ := cutBy_some _ _ _ _ h4
      obtain ⟨c5, q5, r5⟩ := cutBy_some _ _ _ _ h5
      obtain ⟨c6, q6, r6⟩ := cutBy_some _ _ _ _ h6
      simp only at q2 q3 q4 q5 q6 p1 p2 p3 p4 p5 p6
      simp only [beq_iff_eq, Bool.or_eq_true] at r1 r2 r3 r4 r5 r6
      subst r1 r2 r4 r5
      split at hm
      · next he =>
        subst he
        obtain rfl := Option.some.inj hm
        simp only [validDate, decide_eq_true_eq] at hv
        refine ⟨y, m, d, hh, mi, se, c3, c6, ?_, r3, r6, (pYear_read p1).1, (pYear_read p1).2, pMonth_read X p2, pDay_read p3,
          (pHour_read hX p4).1, (pMin_read hX p5).1, (pSec_read hX p6).1, ?_, (pHour_read hX p4).2, (pMin_read hX p5).2,
          (pSec_read hX p6).2⟩
        · rw [q1, q2, q3, q4, q5, q6]; simp
        · exact (dateOk_iff ..).2 ⟨hv.1, hv.2.2.1, hv.2.2.2.1, hv.2.2.2.2.1, hv.2.2.2.2.2⟩
      · simp at hm
    · cases h
  · cases h

theorem cutBy_first (p : Char → Bool) (a : Str) (c : Char) (r : Str) (ha : ∀ x ∈ a, p x = false) (hc : p c = true) :
    cutBy p (a ++ c :: r) = some (a, r) := by
  induction a with
  | nil => simp [cutBy, hc]
  | cons x t ih => rw [List.cons_append, cutBy, ha x (by simp), ih fun y hy => ha y (by simp [hy])]; simp

theorem strptime_reads (X : ExtraDigits) {text : Str} {d : Date} {h mi s : Nat} (ht : IsNonceTime noDigits text d h mi s) :
    strptime X text = .ok ⟨d.1, d.2.1, d.2.2, h, mi, s⟩ := by
  obtain ⟨ys, ms, ds, hs, mis, ss, t, z, rfl, rt, rz, fy, ly, fm, fd, fh, fmi, fs, ok, bh, bm, bs⟩ := ht
  obtain ⟨gy, ay, by'⟩ := pYear_field X fy ly
  have lit : ∀ {l : Str} {c : Char}, l.all asciiDigit = true → asciiDigit c = false → ∀ x ∈ l, (x == c) = false :=
    fun ha hc x hx => not_lit x _ (List.all_eq_true.1 ha x hx) hc
  have lit2 : ∀ {l : Str} {c d : Char}, l.all asciiDigit = true → asciiDigit c = false → asciiDigit d = false →
      ∀ x ∈ l, (x == c || x == d) = false := fun ha hc hd x hx => by rw [lit ha hc x hx, lit ha hd x hx]; rfl
  have hd : ∀ x ∈ ds, (x == 'T' || x == 't') = false := by
    rcases fd with fd | ⟨c, rfl, fd⟩
    · exact lit2 (field_all fd) (by decide) (by decide)
    · intro x hx
      rcases List.mem_cons.1 hx with rfl | hx
      · decide
      · exact lit2 (field_all fd) (by decide) (by decide) x hx
  have ok' := (dateOk_iff d.1 d.2.1 d.2.2).1 ok
  have hdl := daysInMonth_le (isLeap d.1) d.2.1
  have hm : matchTime X (ys ++ '-' :: ms ++ '-' :: ds ++ t :: hs ++ ':' :: mis ++ ':' :: ss ++ [z]) =
      some ⟨d.1, d.2.1, d.2.2, h, mi, s⟩ := by
    rw [matchTime]
    simp only [List.append_assoc, List.cons_append]
    rw [cutBy_first _ _ _ _ (lit ay (by decide)) (by decide)]
    simp only [Option.bind_eq_bind, Option.bind_some]
    rw [cutBy_first _ _ _ _ (lit (field_all fm) (by decide)) (by decide)]
    simp only [Option.bind_some]
    rw [cutBy_first _ _ _ _ hd (by rcases rt with rfl | rfl <;> decide)]
    simp only [Option.bind_some]
    rw [cutBy_first _ _ _ _ (lit (field_all fh) (by decide)) (by decide)]
    simp only [Option.bind_some]
    rw [cutBy_first _ _ _ _ (lit (field_all fmi) (by decide)) (by decide)]
    simp only [Option.bind_some]
    rw [cutBy_first _ _ _ _ (lit2 (field_all fs) (by decide) (by decide)) (by rcases rz with rfl | rfl <;> decide)]
    simp only [Option.bind_some, gy, pMonth_field fm ok'.2.1 ok'.2.2.1, pDay_field X fd ok'.2.2.2.1 (by omega),
      pHour_field X fh bh, pMin_field X fmi bm, pSec_field X fs bs, if_true]
  have hv : validDate d.1 d.2.1 d.2.2 = true :=
    decide_eq_true ⟨ok'.1, by', ok'.2.1, ok'.2.2.1, ok'.2.2.2.1, ok'.2.2.2.2⟩
  rw [strptime, hm]
  exact if_pos hv

/-- **C15** what an accepted nonce is: its first twenty characters are a time as in `IsNonceTime` (so the date exists,
    hours, minutes and seconds are in range), the rest is the salt, and the time is that many seconds after
    1970-01-01T00:00:00.  The leap seconds at the end of 1969 are the only ones of an earlier day. -/
theorem c15_accepted (X : ExtraDigits) (hX : ∀ c n, X c = some n → n ≤ 9) (nonce : Str) (stamp : Int) (salt : Str)
    (h : split X nonce = .ok (stamp, salt)) :
    ∃ d hh mi s, IsNonceTime X (nonce.take 20) d hh mi s ∧ salt = nonce.drop 20 ∧
      ((∃ n, dateAfter n = d ∧ stamp = (86400 * n + (3600 * hh + 60 * mi + s) : Nat)) ∨
        d = (1969, 12, 31) ∧ hh = 23 ∧ mi = 59 ∧ 60 ≤ s ∧ stamp = (s - 60 : Nat)) := by
  rw [split] at h
  obtain ⟨t, ht, h⟩ := bind_eq_ok.1 h
  have hr := matchTime_read hX ht
  simp only at h
  split at h
  · simp at h
  · next hge =>
    obtain ⟨rfl, rfl⟩ := Prod.mk.inj (Except.ok.inj h)
    have hr' := hr
    obtain ⟨_, _, _, _, _, _, _, _, _, _, _, _, _, _, _, _, _, _, ok, bh, bm, bs⟩ := hr'
    exact ⟨_, _, _, _, hr, rfl, (stamp_iff t ok bh bm bs).1 (by omega)⟩

/-- **C15** and every nonce that begins with such a time, in ASCII digits, is accepted as that time, if it is not
    before 1970. -/
theorem c15_accepts (X : ExtraDigits) (nonce : Str) (d : Date) (hh mi s n : Nat)
    (h : IsNonceTime (fun _ => none) (nonce.take 20) d hh mi s) (hn : dateAfter n = d) :
    split X nonce = .ok ((86400 * n + (3600 * hh + 60 * mi + s) : Nat), nonce.drop 20) := by
  have hs := strptime_reads X h
  obtain ⟨_, _, _, _, _, _, _, _, _, _, _, _, _, _, _, _, _, _, ok, bh, bm, bs⟩ := h
  rw [split]
  have ht : nonce.take timeStrLen = nonce.take 20 := rfl
  rw [ht, hs]
  have e := timegm_ord ⟨d.1, d.2.1, d.2.2, hh, mi, s⟩ ok.2.2.2.1
  have e2 : ordOf d = n + 719163 := by rw [← hn]; exact (dateAfter_spec n).2
  have e3 : ordOf (d.1, d.2.1, d.2.2) = ordOf d := rfl
  rw [e3, e2] at e
  have e4 : timegm ⟨d.1, d.2.1, d.2.2, hh, mi, s⟩ = (86400 * n + (3600 * hh + 60 * mi + s) : Nat) := by
    rw [e]; simp only; omega
  simp only [ok_bind, e4]
  rw [if_neg (by omega)]
  rfl

example : IsNonceTime (fun _ => none) t!"1970-01- 2T3:04:61z" (1970, 1, 2) 3 4 61 :=
  ⟨t!"1970", t!"01", t!" 2", t!"3", t!"04", t!"61", 'T', 'z', by decide, by decide, by decide, ⟨[1, 9, 7, 0], by decide, by decide⟩,
    by decide, ⟨⟨[0, 1], by decide, by decide⟩, by decide⟩, .inr ⟨'2', by decide, ⟨[2], by decide, by decide⟩, by decide⟩,
    ⟨⟨[3], by decide, by decide⟩, by decide⟩, ⟨⟨[0, 4], by decide, by decide⟩, by decide⟩,
    ⟨⟨[6, 1], by decide, by decide⟩, by decide⟩, by decide, by decide, by decide, by decide⟩
example : dateAfter 1 = (1970, 1, 2) := by decide
example : split (fun _ => none) t!"1970-01- 2T3:04:61z" = .ok (97501, []) := by decide +kernel
/-- the leap second at the end of 1969 -/
example : split (fun _ => none) t!"1969-12-31T23:59:61Zx" = .ok (1, t!"x") := by decide +kernel
example : split (fun _ => none) t!"1970-01-01T00:60:00Z" = .error .valueError := by decide +kernel
example : split (fun _ => none) t!"1970-01-~2T3:04:61z" = .error .valueError := by decide +kernel

end Props
