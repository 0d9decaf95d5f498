import Verif.Model.FileStore
import Verif.Lemmas.Base64
import Verif.Lemmas.Association
/-! # File names: alphabets and injectivity -/

namespace FileStore
open Py Files Cryptutil

theorem first_sep {x : Char} : ∀ {a b a' b' : Str}, x ∉ a → x ∉ a' → a ++ x :: b = a' ++ x :: b' →
    a = a' ∧ b = b'
  | [], _, [], _, _, _, h => by simpa using h
  | [], _, c :: a', _, _, h', h => by simp at h h'; exact absurd h.1 h'.1
  | c :: a, _, [], _, h', _, h => by simp at h h'; exact absurd h.1.symm h'.1
  | c :: a, _, c' :: a', _, h1, h2, h => by
    simp only [List.cons_append, List.cons.injEq, List.mem_cons, not_or] at h h1 h2
    obtain ⟨e1, e2⟩ := first_sep h1.2 h2.2 h.2
    exact ⟨by rw [h.1, e1], e2⟩

theorem last_sep {x : Char} : ∀ {a b a' b' : Str}, x ∉ b → x ∉ b' → a ++ x :: b = a' ++ x :: b' →
    a = a' ∧ b = b'
  | [], _, [], _, _, _, h => by simpa using h
  | [], _, c :: a', _, h', _, h => by
    simp only [List.nil_append, List.cons_append, List.cons.injEq] at h
    exact absurd (h.2 ▸ (by simp : x ∈ a' ++ x :: _)) h'
  | c :: a, _, [], _, _, h', h => by
    simp only [List.nil_append, List.cons_append, List.cons.injEq] at h
    exact absurd (h.2 ▸ (by simp : x ∈ a ++ x :: _)) h'
  | c :: a, _, c' :: a', _, h1, h2, h => by
    simp only [List.cons_append, List.cons.injEq] at h
    obtain ⟨e1, e2⟩ := last_sep h1 h2 h.2
    exact ⟨by rw [h.1, e1], e2⟩

/-! ## `_safe64` -/

theorem replaceChar_single (a b : Char) (s : Str) :
    replaceChar a [b] s = s.map fun c => if c = a then b else c := by
  rw [replaceChar]
  induction s with
  | nil => rfl
  | cons c s ih => simp only [List.flatMap_cons, ih, List.map_cons]; split <;> rfl

theorem replaceChar_nil (a : Char) (s : Str) : replaceChar a [] s = s.filter (· ≠ a) := by
  rw [replaceChar]
  induction s with
  | nil => rfl
  | cons c s ih =>
    simp only [List.flatMap_cons, ih]
    by_cases h : c = a <;> simp [h]

def sub (c : Char) : Char := if c = '+' then '_' else if c = '/' then '.' else c

theorem safe64_eq (H : Sha1) (s : Str) :
    safe64 H s = ((Base64.encode (H (Utf8.encode s))).map sub).filter (· ≠ '=') := by
  rw [safe64, replaceChar_nil, replaceChar_single, replaceChar_single, toBase64, List.dropLast_concat,
    List.map_map]
  congr 1
  apply List.map_congr_left
  intro c _
  simp only [Function.comp, sub]
  by_cases h1 : c = '+'
  · subst h1; rfl
  · simp [h1]

def unsub (c : Char) : Char := if c = '_' then '+' else if c = '.' then '/' else c

theorem unsub_sub : ∀ c ∈ Base64.alphabet, unsub (sub c) = c := by decide +kernel

/-- the characters of `_safe64` -/
theorem safe64_chars (H : Sha1) (s : Str) : ∀ c ∈ safe64 H s, c ∈ (Base64.alphabet).map sub := by
  intro c hc
  rw [safe64_eq, List.mem_filter, List.mem_map] at hc
  obtain ⟨⟨d, hd, rfl⟩, hne⟩ := hc
  rcases Base64.encode_alphabet _ d hd with h | rfl
  · exact List.mem_map_of_mem h
  · exact absurd hne (by decide)

theorem safe64_no (H : Sha1) (s : Str) {x : Char} (hx : x ∉ (Base64.alphabet).map sub) :
    x ∉ safe64 H s := fun h => hx (safe64_chars H s x h)

theorem dash_no : '-' ∉ (Base64.alphabet).map sub := by decide +kernel
theorem slash_no : '/' ∉ (Base64.alphabet).map sub := by decide +kernel
theorem colon_no : ':' ∉ (Base64.alphabet).map sub := by decide +kernel

theorem encode_pad (b : Bytes) (h : b.length % 3 = 2) :
    ∃ body, Base64.encode b = body ++ ['='] ∧ (∀ c ∈ body, c ∈ Base64.alphabet) := by
  fun_induction Base64.encode b with
  | case1 => simp at h
  | case2 a => simp at h
  | case3 a b =>
    refine ⟨_, (by rfl : _ = [_, _, _] ++ ['=']), ?_⟩
    have ha := a.toNat_lt; have hb := b.toNat_lt
    intro c hc
    simp only [List.mem_cons, List.not_mem_nil, or_false] at hc
    rcases hc with rfl | rfl | rfl <;> exact Base64.encDigit_mem _ (by omega)
  | case4 a b c r ih =>
    simp only [List.length_cons] at h
    obtain ⟨body, h1, h2⟩ := ih (by omega)
    refine ⟨_ :: _ :: _ :: _ :: body, by rw [h1]; rfl, ?_⟩
    have ha := a.toNat_lt; have hb := b.toNat_lt; have hc := c.toNat_lt
    intro x hx
    simp only [List.mem_cons] at hx
    rcases hx with rfl | rfl | rfl | rfl | hx
    · exact Base64.encDigit_mem _ (by omega)
    · exact Base64.encDigit_mem _ (by omega)
    · exact Base64.encDigit_mem _ (by omega)
    · exact Base64.encDigit_mem _ (by omega)
    · exact h2 x hx

theorem sub_ne : ∀ c ∈ Base64.alphabet, sub c ≠ '=' := by decide +kernel

theorem safe64_back (H : Sha1) (s : Str) (hl : (H (Utf8.encode s)).length = 20) :
    (safe64 H s).map unsub ++ ['='] = Base64.encode (H (Utf8.encode s)) ∧ safe64 H s ≠ [] := by
  obtain ⟨body, h1, h2⟩ := encode_pad (H (Utf8.encode s)) (by rw [hl])
  have h3 : safe64 H s = body.map sub := by
    rw [safe64_eq, h1, List.map_append, List.filter_append, List.filter_eq_self.2]
    · have : ([('=' : Char)].map sub).filter (· ≠ '=') = [] := by decide
      rw [this, List.append_nil]
    · intro c hc
      obtain ⟨d, hd, rfl⟩ := List.mem_map.1 hc
      simpa using sub_ne d (h2 d hd)
  refine ⟨?_, ?_⟩
  · rw [h3, h1, List.map_map]
    congr 1
    conv => rhs; rw [← List.map_id body]
    exact List.map_congr_left fun c hc => unsub_sub c (h2 c hc)
  · intro h4
    rw [h3, List.map_eq_nil_iff] at h4
    rw [h4, List.nil_append] at h1
    have := Base64.decode_encode (H (Utf8.encode s))
    rw [h1] at this
    have h5 : Base64.decode ['='] = .ok [] := by decide
    rw [h5] at this
    simp only [Except.ok.injEq] at this
    rw [← this] at hl
    simp at hl

theorem safe64_inj (H : Sha1) (s t : Str) (hs : (H (Utf8.encode s)).length = 20)
    (ht : (H (Utf8.encode t)).length = 20) (h : safe64 H s = safe64 H t) :
    H (Utf8.encode s) = H (Utf8.encode t) := by
  apply Base64.encode_inj
  rw [← (safe64_back H s hs).1, ← (safe64_back H t ht).1, h]

/-! ## `_filenameEscape` -/

theorem hexDigit_upper : ∀ n < 16, hexDigit 65 n ≠ '-' ∧ hexDigit 65 n ≠ '/' := by decide

theorem hexDigitsAux_no (f n : Nat) : '-' ∉ hexDigitsAux 65 f n ∧ '/' ∉ hexDigitsAux 65 f n := by
  induction f generalizing n with
  | zero => simp [hexDigitsAux]
  | succ f ih =>
    rw [hexDigitsAux]
    split
    · next h => have := hexDigit_upper n h; simp [this.1.symm, this.2.symm]
    · have := hexDigit_upper (n % 16) (by omega)
      simp [this.1.symm, this.2.symm, (ih (n / 16)).1, (ih (n / 16)).2]

theorem filenameEscape_no (s : Str) : '-' ∉ filenameEscape s ∧ '/' ∉ filenameEscape s := by
  have : ∀ x, x = '-' ∨ x = '/' → x ∉ filenameEscape s := by
    intro x hx h
    rw [filenameEscape, List.mem_flatMap] at h
    obtain ⟨c, -, hc⟩ := h
    rw [escapeChar] at hc
    split at hc
    · next hs =>
      simp only [List.mem_singleton] at hc
      subst hc
      rcases hx with rfl | rfl <;> exact absurd hs (by decide)
    · simp only [fmtHex, List.mem_cons, List.mem_append, List.mem_replicate] at hc
      have h2 := hexDigitsAux_no (c.toNat + 1) c.toNat
      rcases hc with rfl | ⟨-, rfl⟩ | hc
      · rcases hx with h | h <;> exact absurd h (by decide)
      · rcases hx with h | h <;> exact absurd h (by decide)
      · rcases hx with rfl | rfl
        · exact h2.1 hc
        · exact h2.2 hc
  exact ⟨this _ (.inl rfl), this _ (.inr rfl)⟩

/-! ## splitting at `://` -/

theorem cutStr_eq {s p r : Str} (h : cutStr t!"://" s = some (p, r)) : s = p ++ t!"://" ++ r := by
  induction s generalizing p r with
  | nil => simp [cutStr] at h
  | cons c s ih =>
    rw [cutStr] at h
    split at h
    · next hp =>
      simp only [Option.some.injEq, Prod.mk.injEq] at h
      obtain ⟨rfl, rfl⟩ := h
      obtain ⟨t, ht⟩ := List.isPrefixOf_iff_prefix.1 hp
      rw [← ht]; rfl
    · obtain ⟨q, hq, h2⟩ := Option.map_eq_some_iff.1 h
      simp only [Prod.mk.injEq] at h2
      obtain ⟨rfl, rfl⟩ := h2
      rw [ih hq]; rfl

theorem cutStr_of {p r : Str} (h : ':' ∉ p) : cutStr t!"://" (p ++ t!"://" ++ r) = some (p, r) := by
  induction p with
  | nil => rfl
  | cons c p ih =>
    simp only [List.mem_cons, not_or] at h
    rw [List.cons_append, List.cons_append, cutStr, if_neg, ih h.2]
    · rfl
    · intro h2
      obtain ⟨t, ht⟩ := List.isPrefixOf_iff_prefix.1 h2
      simp only [List.cons_append, List.cons.injEq] at ht
      exact h.1 ht.1

/-! ## association names -/

/-- the hash of a handle, empty for the empty handle -/
def handleHash (H : Sha1) (h : Str) : Str := if h = [] then [] else safe64 H h

theorem handleHash_no (H : Sha1) (h : Str) : '-' ∉ handleHash H h ∧ '/' ∉ handleHash H h := by
  rw [handleHash]
  split
  · simp
  · exact ⟨safe64_no H h dash_no, safe64_no H h slash_no⟩

theorem handleHash_inj (H : Sha1) (h h' : Str) (hl : ∀ x, (H x).length = 20)
    (hc : H (Utf8.encode h) = H (Utf8.encode h') → h = h') (he : handleHash H h = handleHash H h') :
    h = h' := by
  rw [handleHash, handleHash] at he
  by_cases h1 : h = [] <;> by_cases h2 : h' = []
  · rw [h1, h2]
  · rw [if_pos h1, if_neg h2] at he
    exact absurd he.symm (safe64_back H h' (hl _)).2
  · rw [if_neg h1, if_pos h2] at he
    exact absurd he (safe64_back H h (hl _)).2
  · rw [if_neg h1, if_neg h2] at he
    exact hc (safe64_inj H h h' (hl _) (hl _) he)

theorem assocName_ok {H : Sha1} {u h n : Str} (hn : assocName H u h = .ok n) :
    ∃ p r, cutStr t!"://" u = some (p, r) ∧
      n = p ++ '-' :: filenameEscape (beforeSlash r) ++ '-' :: safe64 H u ++ '-' :: handleHash H h := by
  rw [assocName] at hn
  split at hn
  · simp at hn
  · next p r hc =>
    simp only [Except.ok.injEq] at hn
    exact ⟨p, r, hc, hn.symm⟩

theorem assocName_none {H : Sha1} {u : Str} (h : Str) (hn : cutStr t!"://" u = none) :
    assocName H u h = .error .valueError := by rw [assocName, hn]

theorem assocName_some {H : Sha1} {u p r : Str} (h : Str) (hc : cutStr t!"://" u = some (p, r)) :
    assocName H u h = .ok (p ++ '-' :: filenameEscape (beforeSlash r) ++ '-' :: safe64 H u
      ++ '-' :: handleHash H h) := by rw [assocName, hc]; rfl

theorem rcut_none {c : Char} {s : Str} (h : c ∉ s) : rcut c s = none := by
  induction s with
  | nil => rfl
  | cons x s ih =>
    simp only [List.mem_cons, not_or] at h
    rw [rcut, ih h.2, if_neg (Ne.symm h.1)]

theorem basename_self {s : Str} (h : '/' ∉ s) : basename s = s := by rw [basename, rcut_none h]

/-! ## hexadecimal -/

theorem hexDigit_val (X : ExtraDigits) (n : Nat) (h : n < 16) : hexVal X (hexDigit 97 n) = some n := by
  have h1 : ∀ n < 16, (48 ≤ (hexDigit 97 n).toNat ∧ (hexDigit 97 n).toNat ≤ 57 ∧ (hexDigit 97 n).toNat - 48 = n) ∨
      (¬ (48 ≤ (hexDigit 97 n).toNat ∧ (hexDigit 97 n).toNat ≤ 57) ∧
        97 ≤ (hexDigit 97 n).toNat ∧ (hexDigit 97 n).toNat ≤ 102 ∧ (hexDigit 97 n).toNat - 87 = n) := by
    decide
  rw [hexVal]
  rcases h1 n h with ⟨a, b, c⟩ | ⟨a, b, c, d⟩
  · rw [if_pos ⟨a, b⟩, c]
  · rw [if_neg a, if_pos ⟨b, c⟩, d]

theorem hexDigit_lower : ∀ n < 16, isSpace (hexDigit 97 n) = false ∧ hexDigit 97 n ≠ '-' ∧
    hexDigit 97 n ≠ '+' ∧ hexDigit 97 n ≠ 'x' ∧ hexDigit 97 n ≠ 'X' := by decide

theorem hexNat_append (X : ExtraDigits) (acc n : Nat) (sep : Bool) (s t : Str) (hs : s ≠ [])
    (h : hexNat X acc sep s = some n) : hexNat X acc sep (s ++ t) = hexNat X n false t := by
  induction s generalizing acc sep with
  | nil => exact absurd rfl hs
  | cons c s ih =>
    rw [List.cons_append, hexNat]
    rw [hexNat] at h
    cases hv : hexVal X c with
    | some d =>
      rw [hv] at h
      simp only at h ⊢
      by_cases h2 : s = []
      · subst h2
        simp only [hexNat, Bool.false_eq_true, if_false, Option.some.injEq] at h
        subst h; rfl
      · exact ih _ _ h2 h
    | none =>
      rw [hv] at h
      simp only at h ⊢
      split at h
      · next h3 =>
        rw [if_pos h3]
        by_cases h2 : s = []
        · subst h2; simp [hexNat] at h
        · exact ih _ _ h2 h
      · simp at h

theorem hexDigitsAux_ne (a f n : Nat) : hexDigitsAux a (f + 1) n ≠ [] := by
  rw [hexDigitsAux]; split <;> simp

theorem hexNat_digits (X : ExtraDigits) (f n : Nat) (h : n < f) (sep : Bool) :
    hexNat X 0 sep (hexDigitsAux 97 f n) = some n := by
  induction f generalizing n sep with
  | zero => omega
  | succ f ih =>
    rw [hexDigitsAux]
    split
    · next hlt => simp [hexNat, hexDigit_val X n hlt]
    · next hge =>
      obtain ⟨f, rfl⟩ : ∃ g, f = g + 1 := ⟨f - 1, by omega⟩
      rw [hexNat_append X 0 (n / 16) sep _ _ (hexDigitsAux_ne _ _ _) (ih _ (by omega) _)]
      rw [hexNat, hexDigit_val X _ (by omega)]
      simp only [hexNat, Bool.false_eq_true, if_false, Option.some.injEq]
      omega

theorem hexNat_zeros (X : ExtraDigits) (k : Nat) (s : Str) (hs : s ≠ []) (n : Nat)
    (h : ∀ sep, hexNat X 0 sep s = some n) (sep : Bool) :
    hexNat X 0 sep (List.replicate k '0' ++ s) = some n := by
  induction k generalizing sep with
  | zero => exact h sep
  | succ k ih =>
    rw [List.replicate_succ, List.cons_append, hexNat]
    have : hexVal X '0' = some 0 := by simp [hexVal]
    rw [this]
    exact ih false

theorem hexNat_fmt (X : ExtraDigits) (w n : Nat) (sep : Bool) :
    hexNat X 0 sep (fmtHex 97 w n) = some n :=
  hexNat_zeros X _ _ (hexDigitsAux_ne _ _ _) n (fun s => hexNat_digits X _ _ (Nat.lt_succ_self _) s) sep

theorem hexDigits_chars (f n : Nat) (c : Char) (h : c ∈ hexDigitsAux 97 f n) : ∃ d < 16, c = hexDigit 97 d := by
  induction f generalizing n with
  | zero => simp [hexDigitsAux] at h
  | succ f ih =>
    rw [hexDigitsAux] at h
    split at h
    · next hlt => exact ⟨n, hlt, by simpa using h⟩
    · simp only [List.mem_append, List.mem_singleton] at h
      rcases h with h | rfl
      · exact ih _ h
      · exact ⟨n % 16, by omega, rfl⟩

theorem fmtHex_chars (w n : Nat) (c : Char) (h : c ∈ fmtHex 97 w n) : ∃ d < 16, c = hexDigit 97 d := by
  rw [fmtHex, List.mem_append, List.mem_replicate] at h
  rcases h with ⟨-, rfl⟩ | h
  · exact ⟨0, by omega, rfl⟩
  · exact hexDigits_chars _ _ _ h

theorem fmtHex_ne (w n : Nat) : fmtHex 97 w n ≠ [] := by
  rw [fmtHex]
  intro h
  exact hexDigitsAux_ne _ _ _ (List.append_eq_nil_iff.1 h).2

theorem dropHexPrefix_self (s : Str) (h : 'x' ∉ s) (h' : 'X' ∉ s) : dropHexPrefix s = s := by
  unfold dropHexPrefix
  split <;> simp_all

theorem fmtHex_parse (X : ExtraDigits) (w n : Nat) : parseHex X (fmtHex 97 w n) = .ok (n : Int) := by
  have hsp : strip (fmtHex 97 w n) = fmtHex 97 w n := by
    apply strip_digits
    intro c hc
    obtain ⟨d, hd, rfl⟩ := fmtHex_chars w n c hc
    exact (hexDigit_lower d hd).1
  have hpre : dropHexPrefix (fmtHex 97 w n) = fmtHex 97 w n := by
    apply dropHexPrefix_self
    · intro hc
      obtain ⟨d, hd, h⟩ := fmtHex_chars w n _ hc
      exact (hexDigit_lower d hd).2.2.2.1 h.symm
    · intro hc
      obtain ⟨d, hd, h⟩ := fmtHex_chars w n _ hc
      exact (hexDigit_lower d hd).2.2.2.2 h.symm
  have h1 : ∀ c r, fmtHex 97 w n = c :: r → c ≠ '-' ∧ c ≠ '+' := by
    intro c r h
    obtain ⟨d, hd, rfl⟩ := fmtHex_chars w n c (by rw [h]; simp)
    exact ⟨(hexDigit_lower d hd).2.1, (hexDigit_lower d hd).2.2.1⟩
  rw [parseHex, hsp]
  have hv := hexNat_fmt X w n true
  cases hf : fmtHex 97 w n with
  | nil => exact absurd hf (fmtHex_ne w n)
  | cons c r =>
    rw [hf] at hv hpre
    have := h1 c r hf
    split
    · next i heq =>
      split at heq
      · next heq2 => simp only [List.cons.injEq] at heq2; exact absurd heq2.1 this.1
      · next heq2 => simp only [List.cons.injEq] at heq2; exact absurd heq2.1 this.2
      · rw [hpre, hv] at heq
        simpa using heq.symm
    · next heq =>
      split at heq
      · next heq2 => simp only [List.cons.injEq] at heq2; exact absurd heq2.1 this.1
      · next heq2 => simp only [List.cons.injEq] at heq2; exact absurd heq2.1 this.2
      · rw [hpre, hv] at heq
        simp at heq

/-! ## nonce names -/

theorem fmtHex_no (w n : Nat) : '-' ∉ fmtHex 97 w n := by
  intro hc
  obtain ⟨d, hd, h⟩ := fmtHex_chars w n _ hc
  exact (hexDigit_lower d hd).2.1 h.symm

theorem takeWhile_sep {x : Char} {s t : Str} (h : x ∉ s) : (s ++ x :: t).takeWhile (· ≠ x) = s := by
  induction s with
  | nil => simp
  | cons c s ih =>
    simp only [List.mem_cons, not_or] at h
    rw [List.cons_append, List.takeWhile_cons, if_pos (by simpa using Ne.symm h.1), ih h.2]

theorem nonceName_ok {H : Sha1} {u : Str} {t : Int} {s n : Str} (hn : nonceName H u t s = .ok n) :
    ∃ p r, nonceParts u = .ok (p, r) ∧ n = stamp t ++ '-' :: p ++ '-' :: filenameEscape (beforeSlash r)
      ++ '-' :: safe64 H u ++ '-' :: safe64 H s := by
  rw [nonceName] at hn
  split at hn
  · simp at hn
  · next p r hc =>
    simp only [Except.ok.injEq] at hn
    exact ⟨p, r, hc, hn.symm⟩

/-- The time read back from a nonce's file name, if any, is the nonce's. -/
theorem stampOf_name {H : Sha1} {u : Str} {t : Int} {s n : Str} (X : ExtraDigits)
    (hn : nonceName H u t s = .ok n) :
    (0 ≤ t → stampOf X n = .ok t) ∧ (∀ i, stampOf X n = .ok i → i = t) := by
  obtain ⟨p, r, -, rfl⟩ := nonceName_ok hn
  have hshape : stamp t ++ '-' :: p ++ '-' :: filenameEscape (beforeSlash r) ++ '-' :: safe64 H u
      ++ '-' :: safe64 H s = stamp t ++ '-' :: (p ++ '-' :: filenameEscape (beforeSlash r)
      ++ '-' :: safe64 H u ++ '-' :: safe64 H s) := by simp
  rw [hshape, stampOf]
  by_cases ht : t < 0
  · refine ⟨fun h => by omega, fun i hi => ?_⟩
    rw [stamp, if_pos ht, List.cons_append, List.takeWhile_cons, if_neg (by decide)] at hi
    have : ∀ X, parseHex X [] = .error .valueError := fun X => rfl
    rw [this] at hi
    simp at hi
  · rw [stamp, if_neg ht, takeWhile_sep (fmtHex_no _ _), fmtHex_parse]
    refine ⟨fun _ => by congr 1; omega, fun i hi => ?_⟩
    simp only [Except.ok.injEq] at hi
    omega

theorem stamp_inj {t t' : Int} (h : stamp t = stamp t') : t = t' := by
  have X : ExtraDigits := fun _ => none
  have key : ∀ w w' n n', fmtHex 97 w n = fmtHex 97 w' n' → n = n' := by
    intro w w' n n' h
    have := fmtHex_parse X w n
    rw [h, fmtHex_parse] at this
    simp only [Except.ok.injEq] at this
    omega
  rw [stamp, stamp] at h
  split at h <;> split at h
  · simp only [List.cons.injEq, true_and] at h
    have := key _ _ _ _ h
    omega
  · exact absurd (h ▸ (by simp : '-' ∈ '-' :: fmtHex 97 7 t.natAbs)) (fmtHex_no _ _)
  · exact absurd (h.symm ▸ (by simp : '-' ∈ '-' :: fmtHex 97 7 t'.natAbs)) (fmtHex_no _ _)
  · have := key _ _ _ _ h
    omega

end FileStore
