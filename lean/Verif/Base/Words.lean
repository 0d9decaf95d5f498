import Verif.Base.Py
/-! # Python's `text.split()` -/

namespace Py

/-- `s.split()`: the longest runs of characters that are no space -/
def words : Str → List Str
  | [] => []
  | c :: s =>
    if isSpace c then words s
    else match s with
      | [] => [[c]]
      | d :: _ =>
        if isSpace d then [c] :: words s
        else match words s with
          | [] => [[c]]
          | w :: ws => (c :: w) :: ws

theorem words_sp {c : Char} (h : isSpace c = true) (s : Str) : words (c :: s) = words s := by
  rw [words.eq_def]; simp [h]

theorem words_end {c : Char} (h : isSpace c = false) : words [c] = [[c]] := by
  rw [words.eq_def]; simp [h]

theorem words_ch_sp {c d : Char} (h : isSpace c = false) (hd : isSpace d = true) (s : Str) :
    words (c :: d :: s) = [c] :: words (d :: s) := by
  rw [words.eq_def]; simp [h, hd]

theorem words_ch_ch {c d : Char} (h : isSpace c = false) (hd : isSpace d = false) (s : Str) :
    words (c :: d :: s) = match words (d :: s) with
      | [] => [[c]]
      | w :: ws => (c :: w) :: ws := by
  rw [words.eq_def]; simp [h, hd]

theorem words_lstrip (s : Str) : words (lstrip s) = words s := by
  induction s with
  | nil => rfl
  | cons c s ih =>
    unfold lstrip at ih ⊢
    rw [List.dropWhile_cons]
    split
    · next h => rw [ih, words_sp h]
    · rfl

theorem rstrip_nil_spaces {s : Str} (h : rstrip s = []) : ∀ c ∈ s, isSpace c = true := by
  induction s with
  | nil => simp
  | cons c s ih =>
    rw [rstrip] at h
    split at h
    · next hr =>
      split at h
      · next hc => intro d hd; rcases List.mem_cons.1 hd with rfl | hd
                   · exact hc
                   · exact ih hr d hd
      · cases h
    · cases h

theorem words_space {s : Str} (h : ∀ c ∈ s, isSpace c = true) : words s = [] := by
  induction s with
  | nil => rfl
  | cons c s ih => rw [words_sp (h c (by simp))]; exact ih fun d hd => h d (by simp [hd])

theorem rstrip_first {d : Char} {u t : Str} (ht : rstrip (d :: u) = t) (hne : t ≠ []) : ∃ v, t = d :: v := by
  rw [rstrip] at ht
  split at ht
  · split at ht
    · exact absurd ht.symm hne
    · exact ⟨[], ht.symm⟩
  · exact ⟨_, ht.symm⟩

theorem words_rstrip (s : Str) : words (rstrip s) = words s := by
  induction s with
  | nil => rfl
  | cons c s ih =>
    rw [rstrip]
    split
    · next hr =>
      have hs := rstrip_nil_spaces hr
      have hw : words s = [] := words_space hs
      cases hc : isSpace c with
      | true => rw [if_pos rfl, words_sp hc, hw]; rfl
      | false =>
        rw [if_neg (by simp), words_end hc]
        cases s with
        | nil => rw [words_end hc]
        | cons d t => rw [words_ch_sp hc (hs d (by simp)), hw]
    · next hne =>
      cases hc : isSpace c with
      | true => rw [words_sp hc, words_sp hc, ih]
      | false =>
        cases s with
        | nil => exact absurd rfl hne
        | cons d u =>
          obtain ⟨v, hv⟩ := rstrip_first rfl hne
          rw [hv] at ih ⊢
          cases hd : isSpace d with
          | true => rw [words_ch_sp hc hd, words_ch_sp hc hd, ih]
          | false => rw [words_ch_ch hc hd, words_ch_ch hc hd, ih]

theorem words_strip (s : Str) : words (strip s) = words s := by
  rw [strip, words_rstrip, words_lstrip]

/-- a word in front of others -/
theorem words_cons {w : Str} (hw : w ≠ []) (hs : ∀ c ∈ w, isSpace c = false) (s : Str) :
    words (w ++ ' ' :: s) = w :: words s := by
  induction w with
  | nil => exact absurd rfl hw
  | cons c w ih =>
    have hc := hs c (by simp)
    cases w with
    | nil =>
      rw [List.cons_append, List.nil_append, words_ch_sp hc (by decide), words_sp (by decide)]
    | cons d w =>
      have hd := hs d (by simp)
      have := ih (by simp) (fun x hx => hs x (by simp [hx]))
      rw [List.cons_append] at this
      rw [List.cons_append, List.cons_append, words_ch_ch hc hd, this]

theorem words_one {w : Str} (hw : w ≠ []) (hs : ∀ c ∈ w, isSpace c = false) : words w = [w] := by
  induction w with
  | nil => exact absurd rfl hw
  | cons c w ih =>
    have hc := hs c (by simp)
    cases w with
    | nil => rw [words_end hc]
    | cons d w => rw [words_ch_ch hc (hs d (by simp)), ih (by simp) (fun x hx => hs x (by simp [hx]))]

theorem words_join {l : List Str} (h : ∀ w ∈ l, w ≠ [] ∧ ∀ c ∈ w, isSpace c = false) : words (join t!" " l) = l := by
  induction l with
  | nil => rfl
  | cons w l ih =>
    obtain ⟨h1, h2⟩ := h w (by simp)
    cases l with
    | nil => exact words_one h1 h2
    | cons v l =>
      have : join t!" " (w :: v :: l) = w ++ ' ' :: join t!" " (v :: l) := by simp [join]
      rw [this, words_cons h1 h2, ih fun x hx => h x (by simp [hx])]

end Py
