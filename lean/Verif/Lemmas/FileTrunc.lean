import Verif.Lemmas.Utf8
import Verif.Model.FileStore
import Verif.Props.Association
/-! # Reading a truncated association file -/

namespace FileStore
open Py Association KVForm

theorem length_splitOn (c : Char) (s : Str) : (splitOn c s).length = s.count c + 1 := by
  induction s with
  | nil => rfl
  | cons x r ih =>
    rw [splitOn]
    split
    · next h => simp [h, ih]
    · next h =>
      split
      · next h' => exact absurd h' (splitOn_ne_nil c r)
      · next a b h' =>
        rw [h'] at ih
        rw [List.count_cons_of_ne h]
        simpa using ih

theorem splitOn_concat (c : Char) (s : Str) : splitOn c (s ++ [c]) = splitOn c s ++ [[]] := by
  induction s with
  | nil => simp [splitOn]
  | cons x r ih =>
    rw [List.cons_append, splitOn, splitOn, ih]
    split
    · rfl
    · split
      · next h => simp at h
      · next a b h =>
        split
        · next h' => exact absurd h' (splitOn_ne_nil c r)
        · next a' b' h' =>
          rw [h'] at h
          simp only [List.cons_append, List.cons.injEq] at h
          obtain ⟨rfl, rfl⟩ := h
          rfl

theorem kv_length {s : Str} {ps : List (Str × Str)} (h : kvToSeq true s = .ok ps) : ps.length ≤ s.count '\n' := by
  rw [Props.c53_strict] at h
  obtain ⟨h1, -, h2⟩ := h
  rw [Props.c53_lenient, Except.ok.injEq] at h2
  subst h2
  rcases h1 with rfl | ⟨body, rfl⟩
  · decide
  · rw [splitOn_concat, List.filterMap_append, List.length_append,
      show ([[]] : List Str).filterMap Props.pairOnLine = [] from rfl]
    have := List.length_filterMap_le Props.pairOnLine (splitOn '\n' body)
    rw [length_splitOn] at this
    simpa using this

theorem kv_count {ps : List (Str × Str)} {s : Str} {b : Bool} (h : seqToKV b ps = .ok s) : s.count '\n' = ps.length := by
  have hok := (Props.c02_accepts_iff b ps).1 ⟨s, h⟩
  rw [Props.c02_format b ps s h]
  clear h
  induction ps with
  | nil => rfl
  | cons p r ih =>
    obtain ⟨h1, -, h2, -⟩ := hok p (by simp)
    rw [List.map_cons, List.flatten_cons, List.count_append, ih fun q hq => hok q (by simp [hq])]
    simp [List.count_append, List.count_eq_zero.2 h1, List.count_eq_zero.2 h2]
    omega

theorem kv_end {ps : List (Str × Str)} {s : Str} {b : Bool} (h : seqToKV b ps = .ok s) (hs : s ≠ []) :
    ∃ body, s = body ++ ['\n'] := by
  rw [Props.c02_format b ps s h] at hs ⊢
  rcases List.eq_nil_or_concat ps with rfl | ⟨l, p, rfl⟩
  · exact absurd rfl hs
  · exact ⟨_, by rw [List.concat_eq_append, List.map_append, List.flatten_append]; simp only [List.map_cons, List.map_nil, List.flatten_cons, List.flatten_nil, List.append_nil]; rw [← List.append_assoc]⟩

/-- what a file with the beginning of an association in it is read as -/
theorem parseFile_prefix {X : ExtraDigits} {a a' : Assoc} {s : Str} {b : Bytes} (hs : a.serialize = .ok s)
    (hb : b <+: Utf8.encode s) (h : parseFile X b = .ok a') : a' = a ∧ b = Utf8.encode s := by
  unfold parseFile at h
  obtain ⟨s', h1, h2⟩ := bind_eq_ok.1 h
  obtain ⟨t, ht⟩ := Utf8.decode_prefix s s' b hb h1
  obtain ⟨sec, iss, life, h3, -, -, -, hty⟩ := Props.c10_accepts X s' a' h2
  have hlen := kv_length h3
  have hcnt := kv_count hs
  have hne : s ≠ [] := by
    rintro rfl
    simp at hcnt
  obtain ⟨body, hend⟩ := kv_end hs hne
  have ht0 : t = [] := by
    rcases List.eq_nil_or_concat t with h | ⟨t', x, rfl⟩
    · exact h
    · exfalso
      rw [List.concat_eq_append, ← List.append_assoc] at ht
      rw [← ht] at hend
      have hx := (List.append_inj' hend rfl).2
      rw [← ht, hx, List.count_append, List.count_append] at hcnt
      simp only [List.length_cons, List.length_nil] at hcnt hlen
      have : List.count '\n' ['\n'] = 1 := rfl
      omega
  subst ht0
  rw [List.append_nil] at ht
  subst ht
  have h4 := Props.c01_strict_strict _ s' hs (by
    intro p hp
    simp only [List.mem_cons, List.not_mem_nil, or_false] at hp
    rcases hp with rfl | rfl | rfl | rfl | rfl | rfl <;> simp)
  rw [h3] at h4
  simp only [Except.ok.injEq, List.cons.injEq, Prod.mk.injEq, true_and, and_true] at h4
  have hty' : a.assocType ∈ allAssociationTypes := by
    rw [← h4.2.2.2.2]
    rcases hty with h | h <;> rw [h] <;> decide
  have h5 := Props.c10_roundtrip X a hty' s' hs
  rw [h5] at h2
  cases h2
  refine ⟨rfl, ?_⟩
  obtain ⟨q, hq⟩ := hb
  have h6 := Utf8.decodeFrom_split .idle b
  obtain ⟨o, st', h6⟩ := h6
  have h7 := h6 []
  have h8 := h6 q
  rw [hq, Utf8.decodeFrom_encode] at h8
  rw [List.append_nil, (Utf8.decode_ok_iff b s').1 h1] at h7
  rw [h7] at h8
  have h9 := List.append_cancel_left h8
  by_cases hq0 : q = []
  · subst hq0; rw [List.append_nil] at hq; exact hq
  · exfalso
    have : Utf8.decodeFrom st' [] = [] := by
      cases st' with
      | idle => rfl
      | pend k acc lo hi =>
        have : none ∈ s'.map some := by rw [h7]; simp [Utf8.decodeFrom, Utf8.flush]
        simp at this
    rw [this] at h9
    exact Utf8.decodeFrom_ne_nil st' q (.inl hq0) h9.symm

theorem parseFile_full {X : ExtraDigits} {a : Assoc} {s : Str} (hs : a.serialize = .ok s)
    (ht : a.assocType ∈ allAssociationTypes) : parseFile X (Utf8.encode s) = .ok a := by
  simp [parseFile, Utf8.decode_encode, Props.c10_roundtrip X a ht s hs]

theorem parseFile_error {X : ExtraDigits} {b : Bytes} {e : PyErr} (h : parseFile X b = .error e) :
    e.isValueError = true := by
  unfold parseFile at h
  rcases bind_eq_error.1 h with h | ⟨s, -, h⟩
  · unfold Utf8.decode at h
    split at h
    · cases h
    · cases h; rfl
  · exact Props.c10_errors X s e h

end FileStore
