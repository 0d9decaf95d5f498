import Verif.Base.Url
import Verif.Lemmas.Py
/-! Helper lemmas for URL splitting. -/

namespace Url
open Py

theorem cutOr_not_mem (c : Char) (s : Str) (h : c ∉ s) : cutOr c s = (s, []) := by
  rw [cutOr, (cut_eq_none_iff c s).2 h]

theorem cutOr_append (c : Char) (a b : Str) (h : c ∉ a) : cutOr c (a ++ c :: b) = (a, b) := by
  rw [cutOr, cut_append c a b h]

theorem cutOr_spec (c : Char) (s : Str) :
    c ∉ (cutOr c s).1 ∧ (s = (cutOr c s).1 ∧ (cutOr c s).2 = [] ∨ s = (cutOr c s).1 ++ c :: (cutOr c s).2) := by
  rw [cutOr]
  cases h : cut c s with
  | none => exact ⟨(cut_eq_none_iff c s).1 h, .inl ⟨rfl, rfl⟩⟩
  | some p =>
    obtain ⟨a, b⟩ := p
    have := (cut_eq_some_iff c s a b).1 h
    exact ⟨this.2, .inr this.1⟩

theorem cutOr_fst_subset (c : Char) (s : Str) : ∀ x ∈ (cutOr c s).1, x ∈ s := by
  intro x hx
  rcases (cutOr_spec c s).2 with h | h
  · rw [h.1]; exact hx
  · rw [h]; simp [hx]

theorem cutOr_snd_subset (c : Char) (s : Str) : ∀ x ∈ (cutOr c s).2, x ∈ s := by
  intro x hx
  rcases (cutOr_spec c s).2 with h | h
  · rw [h.2] at hx; simp at hx
  · rw [h]; simp [hx]

theorem cutOr_head (c : Char) (s : Str) :
    (cutOr c s).1 = [] ∨ (cutOr c s).1.head? = s.head? := by
  rcases (cutOr_spec c s).2 with h | h
  · right; rw [← h.1]
  · cases h1 : (cutOr c s).1 with
    | nil => left; rfl
    | cons a t => right; rw [h, h1]; rfl

/-- delimiters that end a netloc -/
def isDelim (c : Char) : Bool := c == '/' || c == '?' || c == '#'

theorem splitNetloc_spec (s : Str) :
    (∀ c ∈ (splitNetloc s).1, isDelim c = false) ∧
      ((splitNetloc s).2 = [] ∨ ∃ c r, (splitNetloc s).2 = c :: r ∧ isDelim c = true) := by
  refine ⟨?_, ?_⟩
  · intro c hc
    have h : c ∈ s.takeWhile (fun c => !isDelim c) := hc
    have := List.all_takeWhile (l := s) (p := fun c => !isDelim c)
    have := (List.all_eq_true.1 this) c h
    simpa using this
  · cases h : (splitNetloc s).2 with
    | nil => exact .inl rfl
    | cons c r =>
      right
      have h' : s.dropWhile (fun c => !isDelim c) = c :: r := h
      have := List.head?_dropWhile_not (p := fun c => !isDelim c) (l := s)
      rw [h'] at this
      exact ⟨c, r, rfl, by simpa using this⟩

theorem splitNetloc_append (n r : Str) (hn : ∀ c ∈ n, isDelim c = false)
    (hr : r = [] ∨ ∃ c t, r = c :: t ∧ isDelim c = true) : splitNetloc (n ++ r) = (n, r) := by
  have key : (n ++ r).takeWhile (fun c => !isDelim c) = n ∧
      (n ++ r).dropWhile (fun c => !isDelim c) = r := by
    induction n with
    | nil => rcases hr with rfl | ⟨c, t, rfl, hc⟩ <;> simp [*]
    | cons a n ih =>
      have := ih (fun c hc => hn c (by simp [hc]))
      have ha : isDelim a = false := hn a (by simp)
      simp [ha, this]
  exact Prod.ext key.1 key.2

/-- `urlsplit` on success with a netloc: the netloc has no delimiter, the path is empty or absolute
    and has no `?` or `#`, the query no `#` -/
theorem urlsplit_spec (U : Uni) (url : Str) (s : Split) (h : urlsplit U url = .ok s) :
    (∀ c ∈ s.netloc, isDelim c = false) ∧
    (s.netloc ≠ [] → s.path = [] ∨ ∃ q, s.path = '/' :: q) ∧
    '?' ∉ s.path ∧ '#' ∉ s.path ∧ '#' ∉ s.query ∧
    bracketsOk U s.netloc = true ∧ (isAscii s.netloc = true ∨ U.netlocOk s.netloc = true) := by
  rw [urlsplit] at h
  simp only at h
  generalize (splitScheme (cleanUrl url)) = sch at *
  by_cases hn : startsWith sch.2 t!"//" = true
  · simp only [hn, ↓reduceIte, Bool.true_and] at h
    split at h
    · simp at h
    · rename_i hb
      split at h
      · simp at h
      · rename_i ha
        simp only [Except.ok.injEq] at h
        obtain ⟨h1, h2⟩ := splitNetloc_spec (sch.2.drop 2)
        generalize splitNetloc (sch.2.drop 2) = nr at *
        subst h
        simp only [Bool.not_eq_true'] at hb
        refine ⟨h1, ?_, (cutOr_spec '?' _).1, ?_, ?_, by simpa using hb, ?_⟩
        · intro _
          simp only
          rcases h2 with h2 | ⟨c, r, h2, hc⟩
          · left; rw [h2]; rfl
          · rw [h2]
            have hc' : c = '/' ∨ c = '?' ∨ c = '#' := by simpa [isDelim, or_assoc] using hc
            rcases hc' with rfl | rfl | rfl
            · right
              rcases (cutOr_spec '#' ('/' :: r)).2 with e | e
              · rw [← e.1]
                rcases (cutOr_spec '?' ('/' :: r)).2 with e | e
                · exact ⟨r, e.1.symm⟩
                · cases e1 : (cutOr '?' ('/' :: r)).1 with
                  | nil => rw [e1] at e; simp at e
                  | cons a t => rw [e1] at e; simp at e; rw [e.1]; exact ⟨t, rfl⟩
              · cases e1 : (cutOr '#' ('/' :: r)).1 with
                | nil => rw [e1] at e; simp at e
                | cons a t =>
                  rw [e1] at e; simp at e
                  rw [← e.1]
                  rcases (cutOr_spec '?' ('/' :: t)).2 with e | e
                  · exact ⟨t, e.1.symm⟩
                  · cases e1 : (cutOr '?' ('/' :: t)).1 with
                    | nil => rw [e1] at e; simp at e
                    | cons a t => rw [e1] at e; simp at e; rw [e.1]; exact ⟨t, rfl⟩
            · left
              have : (cutOr '#' ('?' :: r)).1 = [] ∨ (cutOr '#' ('?' :: r)).1.head? = some '?' :=
                cutOr_head _ _
              rcases this with e | e
              · rw [e]; rfl
              · cases e1 : (cutOr '#' ('?' :: r)).1 with
                | nil => rfl
                | cons a t => rw [e1] at e; simp at e; subst e; simp [cutOr, cut]
            · left
              simp [cutOr, cut]
        · intro hm
          exact (cutOr_spec '#' nr.2).1 (cutOr_fst_subset _ _ _ hm)
        · intro hm
          exact (cutOr_spec '#' nr.2).1 (cutOr_snd_subset _ _ _ hm)
        · cases e : isAscii nr.1 <;> simp [e] at ha ⊢; exact ha
  · simp only [hn, Bool.false_eq_true, ↓reduceIte, Bool.false_and] at h
    rw [if_neg (by simp [isAscii])] at h
    simp only [Except.ok.injEq] at h
    subst h
    refine ⟨by simp, by simp, (cutOr_spec '?' _).1, ?_, ?_, by rfl, .inl rfl⟩
    · intro hm
      exact (cutOr_spec '#' sch.2).1 (cutOr_fst_subset _ _ _ hm)
    · intro hm
      exact (cutOr_spec '#' sch.2).1 (cutOr_snd_subset _ _ _ hm)

theorem urlsplit_error (U : Uni) (url : Str) (e : PyErr) (h : urlsplit U url = .error e) :
    e = .valueError := by
  rw [urlsplit] at h
  simp only at h
  generalize (if startsWith _ _ then _ else _ : Str × Str) = nl at h
  generalize (startsWith (splitScheme (cleanUrl url)).2 _ && !bracketsOk U nl.1) = b at h
  cases b
  · simp only [Bool.false_eq_true, ↓reduceIte] at h
    split at h
    · simp at h; exact h.symm
    · simp at h
  · simp at h; exact h.symm

/-- a URL text with scheme, netloc, absolute path -/
theorem urlunsplit_http (scheme netloc p query fragment : Str) (hs : scheme ≠ []) (hn : netloc ≠ []) :
    urlunsplit ⟨scheme, netloc, '/' :: p, query, fragment⟩ =
      scheme ++ t!"://" ++ netloc ++ '/' :: p ++ (if query = [] then [] else '?' :: query) ++
        (if fragment = [] then [] else '#' :: fragment) := by
  simp only [urlunsplit, hs, hn, ne_eq, not_false_eq_true, true_or, ↓reduceIte]
  by_cases hq : query = [] <;> by_cases hf : fragment = [] <;> simp [hq, hf]

theorem urlsplit_urlunsplit (U : Uni) (scheme netloc p query fragment : Str)
    (hs : scheme = t!"http" ∨ scheme = t!"https") (hn : netloc ≠ [])
    (hd : ∀ c ∈ netloc, isDelim c = false) (hb : bracketsOk U netloc = true)
    (ha : isAscii netloc = true ∨ U.netlocOk netloc = true)
    (hp : '?' ∉ p ∧ '#' ∉ p) (hq : '#' ∉ query)
    (hc : ∀ c ∈ netloc ++ p ++ query ++ fragment, 0x20 < c.toNat) :
    urlsplit U (urlunsplit ⟨scheme, netloc, '/' :: p, query, fragment⟩) =
      .ok ⟨scheme, netloc, '/' :: p, query, fragment⟩ := by
  have hsne : scheme ≠ [] := by rcases hs with rfl | rfl <;> simp
  rw [urlunsplit_http _ _ _ _ _ hsne hn]
  generalize htail : (if query = [] then [] else '?' :: query) ++
        (if fragment = [] then [] else '#' :: fragment) = tail
  have htc : ∀ c ∈ tail, 0x20 < c.toNat := by
    intro c hm
    subst htail
    rcases List.mem_append.1 hm with hm | hm
    · split at hm
      · simp at hm
      · rcases List.mem_cons.1 hm with rfl | hm
        · decide
        · exact hc c (by simp [hm])
    · split at hm
      · simp at hm
      · rcases List.mem_cons.1 hm with rfl | hm
        · decide
        · exact hc c (by simp [hm])
  have hall : ∀ c ∈ scheme ++ t!"://" ++ netloc ++ '/' :: p ++ tail, 0x20 < c.toNat := by
    intro c hm
    simp only [List.mem_append, List.mem_cons] at hm
    rcases hm with (((hm | hm) | hm) | hm) | hm
    · rcases hs with rfl | rfl <;> revert c <;> decide
    · rcases hm with rfl | rfl | rfl | hm
      · decide
      · decide
      · decide
      · simp at hm
    · exact hc c (by simp [hm])
    · rcases hm with rfl | hm
      · decide
      · exact hc c (by simp [hm])
    · exact htc c hm
  have hclean : ∀ u : Str, (∀ c ∈ u, 0x20 < c.toNat) → cleanUrl u = u := by
    intro u hu
    have h1 : u.dropWhile (fun c => decide (c.toNat ≤ 0x20)) = u := by
      cases u with
      | nil => rfl
      | cons a t =>
        have := hu a (by simp)
        rw [List.dropWhile_cons_of_neg]; simp; omega
    rw [cleanUrl, h1, List.filter_eq_self]
    intro a ha
    have := hu a ha
    have e1 : a ≠ '\t' := by rintro rfl; revert this; decide
    have e2 : a ≠ '\r' := by rintro rfl; revert this; decide
    have e3 : a ≠ '\n' := by rintro rfl; revert this; decide
    simp [e1, e2, e3]
  rw [List.append_assoc (_ ++ '/' :: p), htail]
  rw [urlsplit, hclean _ hall]
  have hsch : splitScheme (scheme ++ t!"://" ++ netloc ++ '/' :: p ++ tail) =
      (scheme, t!"//" ++ netloc ++ '/' :: p ++ tail) := by
    have e : scheme ++ t!"://" ++ netloc ++ '/' :: p ++ tail =
        scheme ++ ':' :: (t!"//" ++ netloc ++ '/' :: p ++ tail) := by simp
    rw [e, splitScheme, cut_append]
    · rcases hs with rfl | rfl <;> rfl
    · rcases hs with rfl | rfl <;> decide
  have hst : startsWith (t!"//" ++ netloc ++ '/' :: p ++ tail) t!"//" = true := by
    rw [startsWith_iff]; exact ⟨netloc ++ '/' :: p ++ tail, by simp⟩
  have hdrop : (t!"//" ++ netloc ++ '/' :: p ++ tail).drop 2 = netloc ++ ('/' :: p ++ tail) := by simp
  have hspl : splitNetloc (netloc ++ ('/' :: p ++ tail)) = (netloc, '/' :: p ++ tail) :=
    splitNetloc_append _ _ hd (.inr ⟨'/', p ++ tail, rfl, rfl⟩)
  simp only [hsch, hst, hdrop, hspl, ↓reduceIte, hb, Bool.not_true, Bool.and_false, Bool.false_eq_true]
  have hfrag : cutOr '#' ('/' :: p ++ tail) =
      ('/' :: p ++ (if query = [] then [] else '?' :: query), fragment) := by
    have hno : '#' ∉ '/' :: p ++ (if query = [] then [] else '?' :: query) := by
      simp only [List.mem_append, List.mem_cons, not_or]
      refine ⟨⟨by decide, hp.2⟩, ?_⟩
      split
      · simp
      · simp [hq]
    rw [← htail, ← List.append_assoc]
    by_cases hf : fragment = []
    · rw [if_pos hf, List.append_nil, cutOr_not_mem _ _ hno, hf]
    · rw [if_neg hf, cutOr_append _ _ _ hno]
  have hquery : cutOr '?' ('/' :: p ++ (if query = [] then [] else '?' :: query)) =
      ('/' :: p, query) := by
    have hno : '?' ∉ '/' :: p := by simp [hp.1]
    by_cases hf : query = []
    · rw [if_pos hf, List.append_nil, cutOr_not_mem _ _ hno, hf]
    · rw [if_neg hf, cutOr_append _ _ _ hno]
  simp only [hfrag, hquery]
  rw [if_neg]
  rcases ha with ha | ha <;> simp [ha]

end Url
