import Verif.Base.Percent
import Verif.Lemmas.Utf8
import Verif.Lemmas.Py
/-! Percent encoding round trips. -/

namespace Percent
open Py

theorem hexPair_upper (b : UInt8) : hexPair (hexUpper (b.toNat / 16)) (hexUpper (b.toNat % 16)) = some b := by
  have h : ∀ n, n < 16 → hexVal (hexUpper n) = some n := by decide
  have := b.toNat_lt
  rw [hexPair, h _ (by omega), h _ (by omega)]
  simp only [Option.some.injEq]
  rw [show 16 * (b.toNat / 16) + b.toNat % 16 = b.toNat by omega]
  simp

theorem toNat_ofNat_lt (n : Nat) (h : n < 0xD800) : (Char.ofNat n).toNat = n := by
  have hv : n.isValidChar := Or.inl h
  simp [Char.ofNat, hv, Char.toNat, Char.ofNatAux]

theorem unquoteFrom_ascii (st : Utf8.St) (c : Char) (r : Str) (h : c.toNat < 128) (hp : c ≠ '%') :
    unquoteFrom st (c :: r) = (Utf8.step st (UInt8.ofNat c.toNat)).1 ++
      unquoteFrom (Utf8.step st (UInt8.ofNat c.toNat)).2 r := by
  rw [unquoteFrom]
  · rw [if_pos h]
  · intro a b t h1; exact absurd h1 hp

theorem unquoteFrom_pct (st : Utf8.St) (b : UInt8) (r : Str) :
    unquoteFrom st (pct b ++ r) = (Utf8.step st b).1 ++ unquoteFrom (Utf8.step st b).2 r := by
  simp only [pct, List.cons_append, List.nil_append, unquoteFrom, hexPair_upper]

theorem alwaysSafe_lt (b : UInt8) (h : alwaysSafe b = true) : b.toNat < 128 ∧ b.toNat ≠ 37 ∧
    b.toNat ≠ 43 ∧ b.toNat ≠ 38 ∧ b.toNat ≠ 61 ∧ b.toNat ≠ 35 ∧ 32 < b.toNat ∧ b.toNat ≠ 63 := by
  simp [alwaysSafe] at h
  omega

/-- output and final state of the decoder on a byte string -/
def runBytes (st : Utf8.St) : Bytes → List (Option Char) × Utf8.St
  | [] => ([], st)
  | b :: r => ((Utf8.step st b).1 ++ (runBytes (Utf8.step st b).2 r).1, (runBytes (Utf8.step st b).2 r).2)

theorem decodeFrom_runBytes (st : Utf8.St) (bs r : Bytes) :
    Utf8.decodeFrom st (bs ++ r) = (runBytes st bs).1 ++ Utf8.decodeFrom (runBytes st bs).2 r := by
  induction bs generalizing st with
  | nil => rfl
  | cons b t ih => simp [Utf8.decodeFrom, runBytes, ih]

theorem unquoteFrom_quotePlus (st : Utf8.St) (bs : Bytes) (r : Str) :
    unquoteFrom st ((quotePlusBytes bs).map (fun c => if c = '+' then ' ' else c) ++ r) =
      (runBytes st bs).1 ++ unquoteFrom (runBytes st bs).2 r := by
  induction bs generalizing st with
  | nil => rfl
  | cons b t ih =>
    simp only [quotePlusBytes, List.flatMap_cons, List.map_append, List.append_assoc] at ih ⊢
    by_cases h32 : b.toNat = 32
    · have hb : UInt8.ofNat 32 = b := by
        apply UInt8.toNat_inj.1; rw [h32]; rfl
      simp only [h32, ↓reduceIte, List.map_cons, List.map_nil, List.cons_append, List.nil_append]
      rw [unquoteFrom_ascii _ _ _ (by decide) (by decide), show (' ').toNat = 32 from rfl, hb, ih]
      simp [runBytes]
    · simp only [h32, ↓reduceIte]
      by_cases hs : alwaysSafe b = true
      · have hl := alwaysSafe_lt b hs
        have e := toNat_ofNat_lt b.toNat (by omega)
        have hne : Char.ofNat b.toNat ≠ '+' := by
          intro h; have := congrArg Char.toNat h; rw [e] at this; exact hl.2.2.1 this
        have hne2 : Char.ofNat b.toNat ≠ '%' := by
          intro h; have := congrArg Char.toNat h; rw [e] at this; exact hl.2.1 this
        simp only [hs, ↓reduceIte, List.map_cons, hne, List.map_nil, List.cons_append, List.nil_append]
        rw [unquoteFrom_ascii _ _ _ (by omega) hne2, e, ih]
        simp [runBytes]
      · have hhex : ∀ n, n < 16 → hexUpper n ≠ '+' := by decide
        have := b.toNat_lt
        have hm : (pct b).map (fun c => if c = '+' then ' ' else c) = pct b := by
          simp only [pct, List.map_cons, List.map_nil]
          rw [if_neg (hhex _ (by omega)), if_neg (hhex _ (by omega)), if_neg (by decide)]
        simp only [hs, Bool.false_eq_true, ↓reduceIte, hm]
        rw [unquoteFrom_pct, ih]
        simp [runBytes]

theorem unquotePlus_quotePlus (s : Str) : unquotePlus (quotePlusBytes (Utf8.encode s)) = s := by
  have h := unquoteFrom_quotePlus .idle (Utf8.encode s) []
  have h2 := decodeFrom_runBytes .idle (Utf8.encode s) []
  rw [List.append_nil] at h h2
  have e : unquoteFrom (runBytes .idle (Utf8.encode s)).2 [] =
      Utf8.decodeFrom (runBytes .idle (Utf8.encode s)).2 [] := by
    simp [unquoteFrom, Utf8.decodeFrom]
  rw [e, ← h2] at h
  rw [unquotePlus, unquote, h]
  exact Utf8.decodeReplace_encode s

theorem unquoteFrom_quote (safe : Str) (hs : '%' ∉ safe) (st : Utf8.St) (bs : Bytes) (r : Str) :
    unquoteFrom st (quoteBytes safe bs ++ r) =
      (runBytes st bs).1 ++ unquoteFrom (runBytes st bs).2 r := by
  induction bs generalizing st with
  | nil => rfl
  | cons b t ih =>
    simp only [quoteBytes, List.flatMap_cons, List.append_assoc] at ih ⊢
    split
    · next h =>
      have hl : b.toNat < 128 ∧ Char.ofNat b.toNat ≠ '%' := by
        simp only [Bool.or_eq_true, Bool.and_eq_true, decide_eq_true_eq, List.contains_iff_mem] at h
        rcases h with h | h
        · have hl := alwaysSafe_lt b h
          refine ⟨hl.1, ?_⟩
          intro h'; have := congrArg Char.toNat h'; rw [toNat_ofNat_lt _ (by omega)] at this
          exact hl.2.1 this
        · exact ⟨h.1, fun h' => hs (h' ▸ h.2)⟩
      rw [List.singleton_append, unquoteFrom_ascii _ _ _ (by rw [toNat_ofNat_lt _ (by omega)]; omega) hl.2,
        toNat_ofNat_lt _ (by omega), ih]
      simp [runBytes]
    · rw [unquoteFrom_pct, ih]
      simp [runBytes]

theorem unquote_quote (safe s : Str) (hs : '%' ∉ safe) : unquote (quote safe s) = s := by
  have h := unquoteFrom_quote safe hs .idle (Utf8.encode s) []
  have h2 := decodeFrom_runBytes .idle (Utf8.encode s) []
  rw [List.append_nil] at h h2
  have e : unquoteFrom (runBytes .idle (Utf8.encode s)).2 [] =
      Utf8.decodeFrom (runBytes .idle (Utf8.encode s)).2 [] := by
    simp [unquoteFrom, Utf8.decodeFrom]
  rw [e, ← h2] at h
  rw [unquote, quote, h]
  exact Utf8.decodeReplace_encode s

/-- characters that can occur in the output of `quote_plus` -/
def isQuotedChar (c : Char) : Bool :=
  let n := c.toNat
  (65 ≤ n && n ≤ 90) || (97 ≤ n && n ≤ 122) || (48 ≤ n && n ≤ 57)
    || n == 95 || n == 46 || n == 45 || n == 126 || n == 37 || n == 43

theorem quotePlus_chars (bs : Bytes) : ∀ c ∈ quotePlusBytes bs, isQuotedChar c = true := by
  intro c hc
  obtain ⟨b, _, hc⟩ := List.mem_flatMap.1 hc
  have hhex : ∀ n, n < 16 → isQuotedChar (hexUpper n) = true := by decide
  have := b.toNat_lt
  split at hc
  · simp at hc; subst hc; decide
  · split at hc
    · next h =>
      simp at hc; subst hc
      have hl := alwaysSafe_lt b h
      simp only [isQuotedChar, toNat_ofNat_lt b.toNat (by omega)]
      simp only [alwaysSafe] at h
      simp only [h, Bool.true_or]
    · simp only [pct, List.mem_cons, List.not_mem_nil, or_false] at hc
      rcases hc with rfl | rfl | rfl
      · decide
      · exact hhex _ (by omega)
      · exact hhex _ (by omega)

theorem quotePlus_not_mem (bs : Bytes) (c : Char) (h : isQuotedChar c = false) :
    c ∉ quotePlusBytes bs := fun hc => by simp [quotePlus_chars bs c hc] at h

theorem parseField_encoded (p : Str × Str) :
    parseField true (quotePlusBytes (Utf8.encode p.1) ++ '=' :: quotePlusBytes (Utf8.encode p.2)) =
      some p := by
  rw [parseField, if_neg (by simp), cut_append _ _ _ (quotePlus_not_mem _ _ (by decide))]
  simp [unquotePlus_quotePlus]

theorem quotePlus_eq_nil (s : Str) : quotePlusBytes (Utf8.encode s) = [] ↔ s = [] := by
  constructor
  · intro h
    have := unquotePlus_quotePlus s
    rw [h] at this
    exact this.symm
  · rintro rfl; rfl

theorem parseField_encoded_noblank (p : Str × Str) :
    parseField false (quotePlusBytes (Utf8.encode p.1) ++ '=' :: quotePlusBytes (Utf8.encode p.2)) =
      if p.2 = [] then none else some p := by
  rw [parseField, if_neg (by simp), cut_append _ _ _ (quotePlus_not_mem _ _ (by decide))]
  by_cases h : p.2 = []
  · simp [h, (quotePlus_eq_nil []).2]
  · have : quotePlusBytes (Utf8.encode p.2) ≠ [] := by rwa [ne_eq, quotePlus_eq_nil]
    simp [h, this, unquotePlus_quotePlus]

theorem splitOn_urlencode (args : List (Str × Str)) (h : args ≠ []) :
    splitOn '&' (urlencode args) = args.map fun p =>
      quotePlusBytes (Utf8.encode p.1) ++ '=' :: quotePlusBytes (Utf8.encode p.2) := by
  apply splitOn_join
  · simpa using h
  · intro x hx
    obtain ⟨p, _, rfl⟩ := List.mem_map.1 hx
    simp [quotePlus_not_mem _ '&' (by decide)]

theorem parseQsl_urlencode (args : List (Str × Str)) : parseQsl true (urlencode args) = args := by
  by_cases h : args = []
  · subst h; rfl
  · rw [parseQsl, splitOn_urlencode _ h]
    clear h
    induction args with
    | nil => rfl
    | cons p r ih => rw [List.map_cons, List.filterMap_cons, parseField_encoded, ih]

theorem parseQsl_urlencode_noblank (args : List (Str × Str)) :
    parseQsl false (urlencode args) = args.filter fun p => p.2 ≠ [] := by
  by_cases h : args = []
  · subst h; rfl
  · rw [parseQsl, splitOn_urlencode _ h]
    clear h
    induction args with
    | nil => rfl
    | cons p r ih =>
      rw [List.map_cons, List.filterMap_cons, parseField_encoded_noblank, ih]
      by_cases hp : p.2 = [] <;> simp [hp]

theorem splitOn_append_sep (c : Char) (a b : Str) :
    splitOn c (a ++ c :: b) = splitOn c a ++ splitOn c b := by
  induction a with
  | nil => simp [splitOn]
  | cons x xs ih =>
    rw [List.cons_append, splitOn, splitOn]
    split
    · rw [ih]; rfl
    · rw [ih]
      cases h : splitOn c xs with
      | nil => exact absurd h (splitOn_ne_nil c xs)
      | cons y ys => rfl

theorem parseQsl_append (kb : Bool) (a b : Str) :
    parseQsl kb (a ++ '&' :: b) = parseQsl kb a ++ parseQsl kb b := by
  simp [parseQsl, splitOn_append_sep]

end Percent
