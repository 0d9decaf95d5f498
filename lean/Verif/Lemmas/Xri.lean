import Verif.Model.Xri
import Verif.Lemmas.Urinorm
import Verif.Lemmas.MessageParse
/-! # Lemmas about the escapes of XRIs -/

namespace Percent
open Py

/-- the second text is the first with some characters escaped, `%` always -/
inductive Escaped : Str → Str → Prop
  | nil : Escaped [] []
  | plain {c : Char} {a b : Str} : c ≠ '%' → Escaped a b → Escaped (c :: a) (c :: b)
  | escape {c : Char} {a b : Str} : c.toNat < 128 → Escaped a b → Escaped (c :: a) (pct (UInt8.ofNat c.toNat) ++ b)

theorem runBytes_append (st : Utf8.St) (a b : Bytes) : runBytes st (a ++ b) =
    ((runBytes st a).1 ++ (runBytes (runBytes st a).2 b).1, (runBytes (runBytes st a).2 b).2) := by
  induction a generalizing st with
  | nil => rfl
  | cons x a ih => simp [runBytes, ih]

theorem unquoteFrom_quote_noPct (safe : Str) (st : Utf8.St) (bs : Bytes) (hb : ∀ b ∈ bs, b.toNat ≠ 37) (r : Str) :
    unquoteFrom st (quoteBytes safe bs ++ r) = (runBytes st bs).1 ++ unquoteFrom (runBytes st bs).2 r := by
  induction bs generalizing st with
  | nil => rfl
  | cons b t ih =>
    have ih := fun st => ih st (fun x hx => hb x (by simp [hx]))
    simp only [quoteBytes, List.flatMap_cons, List.append_assoc] at ih ⊢
    split
    · next h =>
      have hl : b.toNat < 128 := by
        simp only [Bool.or_eq_true, Bool.and_eq_true, decide_eq_true_eq] at h
        rcases h with h | h
        · exact (alwaysSafe_lt b h).1
        · exact h.1
      have hne : Char.ofNat b.toNat ≠ '%' := by
        intro h'; have := congrArg Char.toNat h'; rw [toNat_ofNat_lt _ (by omega)] at this
        exact hb b (by simp) this
      rw [List.singleton_append, unquoteFrom_ascii _ _ _ (by rw [toNat_ofNat_lt _ (by omega)]; omega) hne,
        toNat_ofNat_lt _ (by omega), ih]
      simp [runBytes]
    · rw [unquoteFrom_pct, ih]
      simp [runBytes]

theorem encodeChar_noPct {c : Char} (h : c ≠ '%') : ∀ b ∈ Utf8.encodeChar c, b.toNat ≠ 37 := by
  intro b hb
  have hn : c.toNat ≠ 37 := by
    intro hc; apply h; rw [← Char.ofNat_toNat c, hc]
  have hbd := Utf8.char_bound c
  simp only [Utf8.encodeChar] at hb
  split at hb
  · simp only [List.mem_singleton] at hb
    subst hb
    simp only [UInt8.toNat_ofNat']
    omega
  · split at hb
    · simp only [List.mem_cons, List.not_mem_nil, or_false] at hb
      rcases hb with rfl | rfl <;> simp only [UInt8.toNat_ofNat'] <;> omega
    · split at hb
      · simp only [List.mem_cons, List.not_mem_nil, or_false] at hb
        rcases hb with rfl | rfl | rfl <;> simp only [UInt8.toNat_ofNat'] <;> omega
      · simp only [List.mem_cons, List.not_mem_nil, or_false] at hb
        rcases hb with rfl | rfl | rfl | rfl <;> simp only [UInt8.toNat_ofNat'] <;> omega

theorem quote_cons' (safe : Str) (c : Char) (s : Str) : quote safe (c :: s) = quoteBytes safe (Utf8.encodeChar c) ++ quote safe s := by
  simp [quote, Utf8.encode, quoteBytes]

/-- quoting leaves escapes alone if `%` is safe -/
theorem quote_pct (safe : Str) (hs : '%' ∈ safe) (b : UInt8) : quote safe (pct b) = pct b := by
  have hd : ∀ n, n < 16 → quoteBytes safe (Utf8.encodeChar (hexUpper n)) = [hexUpper n] := by
    have h1 : ∀ n, n < 16 → Utf8.encodeChar (hexUpper n) = [UInt8.ofNat (hexUpper n).toNat] ∧
        alwaysSafe (UInt8.ofNat (hexUpper n).toNat) = true ∧ Char.ofNat (UInt8.ofNat (hexUpper n).toNat).toNat = hexUpper n := by
      decide
    intro n hn
    obtain ⟨e1, e2, e3⟩ := h1 n hn
    simp only [e1, quoteBytes, List.flatMap_cons, List.flatMap_nil, List.append_nil, e2, Bool.true_or, if_true, e3]
  have hp : quoteBytes safe (Utf8.encodeChar '%') = ['%'] := by
    have : Utf8.encodeChar '%' = [37] := by decide
    rw [this]
    have h2 : Char.ofNat (37 : UInt8).toNat = '%' := by decide
    simp only [quoteBytes, List.flatMap_cons, List.flatMap_nil, List.append_nil, h2]
    rw [if_pos (by simp [hs])]
  have := b.toNat_lt
  rw [pct, quote_cons', quote_cons', quote_cons', hp, hd _ (by omega), hd _ (by omega)]
  rfl

theorem unquoteFrom_escaped (safe : Str) (hs : '%' ∈ safe) {a b : Str} (h : Escaped a b) (st : Utf8.St) (r : Str) :
    unquoteFrom st (quote safe b ++ r) =
      (runBytes st (Utf8.encode a)).1 ++ unquoteFrom (runBytes st (Utf8.encode a)).2 r := by
  induction h generalizing st with
  | nil => rfl
  | @plain c a b hc _ ih =>
    have he : Utf8.encode (c :: a) = Utf8.encodeChar c ++ Utf8.encode a := by simp [Utf8.encode]
    rw [quote_cons', List.append_assoc, unquoteFrom_quote_noPct safe st _ (encodeChar_noPct hc), ih, he, runBytes_append]
    simp
  | @escape c a b hc _ ih =>
    have he : Utf8.encode (c :: a) = UInt8.ofNat c.toNat :: Utf8.encode a := by
      simp [Utf8.encode, Utf8.encodeChar, hc]
    rw [quote_append, quote_pct safe hs, List.append_assoc, unquoteFrom_pct, ih, he]
    simp [runBytes]

theorem unquote_escaped (safe : Str) (hs : '%' ∈ safe) {a b : Str} (h : Escaped a b) : unquote (quote safe b) = a := by
  have h := unquoteFrom_escaped safe hs h .idle []
  have h2 := decodeFrom_runBytes .idle (Utf8.encode a) []
  rw [List.append_nil] at h h2
  have e : unquoteFrom (runBytes .idle (Utf8.encode a)).2 [] = Utf8.decodeFrom (runBytes .idle (Utf8.encode a)).2 [] := by
    simp [unquoteFrom, Utf8.decodeFrom]
  rw [e, ← h2] at h
  rw [unquote, h]
  exact Utf8.decodeReplace_encode a

theorem Escaped.append {a b a' b' : Str} (h : Escaped a b) (h' : Escaped a' b') : Escaped (a ++ a') (b ++ b') := by
  induction h with
  | nil => exact h'
  | plain hc _ ih => exact .plain hc ih
  | escape hc _ ih => rw [List.append_assoc]; exact .escape hc ih

/-- a text is taken apart at a character that no escape has -/
theorem Escaped.split {raw p q : Str} {c : Char} (hc : isPctChar c = false) (h : Escaped raw (p ++ c :: q)) :
    ∃ r1 r2, raw = r1 ++ c :: r2 ∧ Escaped r1 p ∧ Escaped r2 q := by
  generalize ht : p ++ c :: q = t at h
  induction h generalizing p with
  | nil => simp at ht
  | @plain d a b hd hab ih =>
    cases p with
    | nil =>
      simp only [List.nil_append, List.cons.injEq] at ht
      obtain ⟨rfl, rfl⟩ := ht
      exact ⟨[], a, rfl, .nil, hab⟩
    | cons x p =>
      simp only [List.cons_append, List.cons.injEq] at ht
      obtain ⟨rfl, ht⟩ := ht
      obtain ⟨r1, r2, rfl, h1, h2⟩ := ih ht
      exact ⟨x :: r1, r2, rfl, .plain hd h1, h2⟩
  | @escape d a b hd hab ih =>
    have hne : ∀ x ∈ pct (UInt8.ofNat d.toNat), x ≠ c := by
      intro x hx hxc
      have := pct_chars _ x hx
      rw [hxc, hc] at this
      exact absurd this (by simp)
    have hlen : 3 ≤ p.length := by
      have hl : (pct (UInt8.ofNat d.toNat)).length = 3 := rfl
      refine Classical.byContradiction fun hlt => ?_
      have h1 : (p ++ c :: q)[p.length]? = some c := by simp
      rw [ht, List.getElem?_append_left (by omega)] at h1
      exact hne c (List.mem_of_getElem? h1) rfl
    have hp : p = pct (UInt8.ofNat d.toNat) ++ p.drop 3 := by
      have h1 := congrArg (List.take 3) ht
      rw [List.take_append_of_le_length hlen] at h1
      have h2 : List.take 3 (pct (UInt8.ofNat d.toNat) ++ b) = pct (UInt8.ofNat d.toNat) := rfl
      rw [← h2, ← h1, List.take_append_drop]
    rw [hp, List.append_assoc] at ht
    obtain ⟨r1, r2, rfl, h1, h2⟩ := ih (List.append_cancel_left ht)
    exact ⟨d :: r1, r2, rfl, by rw [hp]; exact .escape hd h1, h2⟩

/-- escaping a character that no escape has -/
theorem Escaped.replace {raw t : Str} (c : Char) (hc : isPctChar c = false) (hlt : c.toNat < 128) (h : Escaped raw t) :
    Escaped raw (replaceChar c (pct (UInt8.ofNat c.toNat)) t) := by
  induction h with
  | nil => exact .nil
  | @plain d a b hd _ ih =>
    simp only [replaceChar, List.flatMap_cons] at ih ⊢
    split
    · next hdc => subst hdc; exact .escape hlt ih
    · exact .plain hd ih
  | @escape d a b hd _ ih =>
    have hid : replaceChar c (pct (UInt8.ofNat c.toNat)) (pct (UInt8.ofNat d.toNat)) = pct (UInt8.ofNat d.toNat) := by
      have key : ∀ l : Str, c ∉ l → replaceChar c (pct (UInt8.ofNat c.toNat)) l = l := by
        intro l
        induction l with
        | nil => intro _; rfl
        | cons x l ih =>
          intro hx
          simp only [List.mem_cons, not_or] at hx
          rw [replaceChar, List.flatMap_cons, if_neg (fun h => hx.1 h.symm)]
          show x :: replaceChar c _ l = x :: l
          rw [ih hx.2]
      refine key _ fun hm => ?_
      have := pct_chars _ c hm
      rw [hc] at this
      exact absurd this (by simp)
    have : replaceChar c (pct (UInt8.ofNat c.toNat)) (pct (UInt8.ofNat d.toNat) ++ b) =
        replaceChar c (pct (UInt8.ofNat c.toNat)) (pct (UInt8.ofNat d.toNat)) ++ replaceChar c (pct (UInt8.ofNat c.toNat)) b := by
      simp [replaceChar]
    rw [this, hid]
    exact .escape hd ih

theorem escaped_pct (s : Str) : Escaped s (replaceChar '%' t!"%25" s) := by
  induction s with
  | nil => exact .nil
  | cons c s ih =>
    rw [replaceChar, List.flatMap_cons]
    split
    · next h => subst h; exact .escape (c := '%') (by decide) ih
    · next h => exact .plain h ih

end Percent

namespace Xri
open Py Percent

theorem escaped_xref {raw t : Str} (h : Escaped raw t) : Escaped raw (escapeXref t) := by
  rw [escapeXref]
  have h1 := (h.replace '/' (by decide) (by decide)).replace '?' (by decide) (by decide)
  exact h1.replace '#' (by decide) (by decide)

theorem escapeXrefs_append (p t : Str) (h : '(' ∉ p) : escapeXrefs (p ++ t) = p ++ escapeXrefs t := by
  induction p with
  | nil => rfl
  | cons c p ih =>
    simp only [List.mem_cons, not_or] at h
    rw [List.cons_append, escapeXrefs, if_neg (fun e => h.1 e.symm), ih h.2, List.cons_append]

theorem escaped_xrefs (n : Nat) : ∀ {raw t : Str}, t.length ≤ n → Escaped raw t → Escaped raw (escapeXrefs t) := by
  induction n with
  | zero =>
    intro raw t hl h
    have ht : t = [] := List.length_eq_zero_iff.mp (Nat.le_zero.mp hl)
    subst ht
    rw [escapeXrefs]; exact h
  | succ n ih =>
    intro raw t hl h
    cases h with
    | nil => rw [escapeXrefs]; exact .nil
    | @escape c a b hc hab =>
      rw [escapeXrefs_append]
      · refine .escape hc (ih ?_ hab)
        rw [List.length_append] at hl
        have : (pct (UInt8.ofNat c.toNat)).length = 3 := rfl
        omega
      · intro hm
        have := pct_chars _ _ hm
        exact absurd this (by decide)
    | @plain c a b hc hab =>
      simp only [List.length_cons, Nat.add_le_add_iff_right] at hl
      rw [escapeXrefs]
      split
      · split
        · next i r hcut =>
          split
          · exact .plain hc (ih hl hab)
          · have hr : b = i ++ ')' :: r := Message.cut_some_eq hcut
            subst hr
            obtain ⟨r1, r2, rfl, h1, h2⟩ := Escaped.split (c := ')') (by decide) hab
            rename_i hp _
            subst hp
            refine .plain hc ((escaped_xref h1).append (.plain (by decide) (ih ?_ h2)))
            simp only [List.length_append, List.length_cons] at hl
            omega
        · exact .plain hc (ih hl hab)
      · exact .plain hc (ih hl hab)

end Xri
