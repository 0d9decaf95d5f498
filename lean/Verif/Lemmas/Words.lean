import Verif.Lemmas.Discover
/-! # Words of `rel` attributes -/

namespace Py

theorem splitOn_append' (c : Char) (a b : Str) : splitOn c (a ++ c :: b) = splitOn c a ++ splitOn c b := by
  induction a with
  | nil => simp [splitOn]
  | cons x xs ih =>
    rw [List.cons_append, splitOn, splitOn, ih]
    split
    · rfl
    · cases h : splitOn c xs with
      | nil => exact absurd h (splitOn_ne_nil c xs)
      | cons y ys => rfl

/-- a piece of a text, between separators or its ends -/
theorem mem_splitOn (c : Char) (s w : Str) : w ∈ splitOn c s ↔ c ∉ w ∧ ∃ pre post, s = pre ++ w ++ post ∧
    (pre = [] ∨ pre.getLast? = some c) ∧ (post = [] ∨ post.head? = some c) := by
  constructor
  · intro h
    refine ⟨splitOn_pieces c s w h, ?_⟩
    induction s with
    | nil => simp [splitOn] at h; subst h; exact ⟨[], [], rfl, .inl rfl, .inl rfl⟩
    | cons x xs ih =>
      rw [splitOn] at h
      split at h
      · next hx =>
        subst hx
        rcases List.mem_cons.1 h with rfl | h
        · exact ⟨[], x :: xs, by simp, .inl rfl, .inr rfl⟩
        · obtain ⟨pre, post, h1, h2, h3⟩ := ih h
          refine ⟨x :: pre, post, by rw [h1]; simp, .inr ?_, h3⟩
          rcases h2 with rfl | h2
          · rfl
          · rw [List.getLast?_cons, h2]; rfl
      · next hx =>
        cases hs : splitOn c xs with
        | nil => exact absurd hs (splitOn_ne_nil c xs)
        | cons y ys =>
          rw [hs] at h
          rcases List.mem_cons.1 h with rfl | h
          · cases hc : cut c xs with
            | none =>
              have hn := (cut_eq_none_iff c xs).1 hc
              rw [splitOn_not_mem c xs hn] at hs
              simp only [List.cons.injEq] at hs
              exact ⟨[], [], by simp [hs.1], .inl rfl, .inl rfl⟩
            | some p =>
              obtain ⟨h1, h2⟩ := (cut_eq_some_iff c xs p.1 p.2).1 hc
              rw [h1, splitOn_append c _ _ h2] at hs
              simp only [List.cons.injEq] at hs
              exact ⟨[], c :: p.2, by rw [h1, ← hs.1]; simp, .inl rfl, .inr rfl⟩
          · have hm : w ∈ splitOn c xs := by rw [hs]; simp [h]
            obtain ⟨pre, post, h1, h2, h3⟩ := ih hm
            cases hpre : pre with
            | nil =>
              -- the piece occurs later too; find it there
              have hj := join_splitOn c xs
              rw [hs] at hj
              have hys : ys ≠ [] := fun h' => by rw [h'] at h; simp at h
              obtain ⟨l1, l2, rfl⟩ := List.append_of_mem h
              have e1 : ∀ l : List Str, l ≠ [] → ∀ a, join [c] (a :: l) = a ++ c :: join [c] l := by
                intro l hl a; rw [join_cons_of_ne _ _ _ hl]; simp
              have e2 : ∀ a (l : List Str), ∃ pre post, join [c] (a :: l ++ w :: l2) = pre ++ w ++ post ∧
                  pre.getLast? = some c ∧ (post = [] ∨ post.head? = some c) := by
                intro a l
                induction l generalizing a with
                | nil =>
                  rw [List.cons_append, List.nil_append, e1 _ (by simp)]
                  refine ⟨a ++ [c], (if l2 = [] then [] else c :: join [c] l2), ?_, by simp, ?_⟩
                  · split
                    · next h' => subst h'; simp [join]
                    · next h' => rw [e1 _ h']; simp
                  · split <;> simp
                | cons b l ih' =>
                  obtain ⟨pre, post, k1, k2, k3⟩ := ih' b
                  rw [List.cons_append, e1 _ (by simp), k1]
                  exact ⟨a ++ c :: pre, post, by simp, by simp [List.getLast?_append, List.getLast?_cons, k2], k3⟩
              obtain ⟨pre', post', k1, k2, k3⟩ := e2 y l1
              rw [List.cons_append] at k1
              rw [k1] at hj
              refine ⟨x :: pre', post', by rw [← hj]; simp, .inr ?_, k3⟩
              rw [List.getLast?_cons, k2]; rfl
            | cons z pre' =>
              subst hpre
              refine ⟨x :: z :: pre', post, by rw [h1]; simp, .inr ?_, h3⟩
              rcases h2 with h2 | h2
              · simp at h2
              · rw [List.getLast?_cons, h2]; rfl
  · rintro ⟨hw, pre, post, rfl, h2, h3⟩
    have h4 : ∀ post, (post = [] ∨ post.head? = some c) → w ∈ splitOn c (w ++ post) := by
      rintro post (rfl | h)
      · rw [List.append_nil, splitOn_not_mem c w hw]; simp
      · cases post with
        | nil => simp at h
        | cons d post =>
          simp only [List.head?_cons, Option.some.injEq] at h
          subst h
          rw [splitOn_append d _ _ hw]; simp
    rcases h2 with rfl | h2
    · rw [List.nil_append]; exact h4 post h3
    · obtain ⟨pre', rfl⟩ : ∃ pre', pre = pre' ++ [c] := by
        rcases List.eq_nil_or_concat pre with rfl | ⟨p, d, rfl⟩
        · simp at h2
        · simp at h2; subst h2; exact ⟨p, by simp⟩
      rw [List.append_assoc, List.append_assoc, List.singleton_append, splitOn_append']
      exact List.mem_append_right _ (h4 post h3)

end Py

namespace Discover
open Py Xml Spec

theorem hasInfix_iff (n s : Str) : hasInfix n s = true ↔ ∃ a b, s = a ++ n ++ b := by
  induction s with
  | nil =>
    rw [hasInfix]
    constructor
    · intro h; rw [List.isEmpty_iff] at h; subst h; exact ⟨[], [], rfl⟩
    · rintro ⟨a, b, h⟩
      have := congrArg List.length h
      simp at this
      simp [List.eq_nil_of_length_eq_zero (by omega : n.length = 0)]
  | cons c cs ih =>
    rw [hasInfix, Bool.or_eq_true, startsWith_iff, ih]
    constructor
    · rintro (⟨r, h⟩ | ⟨a, b, h⟩)
      · exact ⟨[], r, by simpa using h⟩
      · exact ⟨c :: a, b, by simp [h]⟩
    · rintro ⟨a, b, h⟩
      cases a with
      | nil => exact .inl ⟨b, by simpa using h⟩
      | cons d a => simp at h; exact .inr ⟨a, b, by simp [h.2]⟩

/-- whitespace to spaces -/
def blank (c : Char) : Char := if isXmlSpace c then ' ' else c

theorem isXmlSpace_iff (c : Char) : isXmlSpace c = true ↔ c ∈ t!" \t\n\r" := by
  simp [isXmlSpace]; grind

theorem xmlWords_eq (s : Str) : xmlWords s = (splitOn ' ' (s.map blank)).filter (· ≠ []) := by
  induction s with
  | nil => rfl
  | cons c cs ih =>
    rw [xmlWords.eq_def]
    simp only [List.map_cons]
    by_cases hc : isXmlSpace c = true
    · rw [if_pos hc, blank, if_pos hc, splitOn, if_pos rfl, ih]; simp
    · rw [if_neg hc]
      have hb : blank c = c := by rw [blank, if_neg hc]
      have hne : c ≠ ' ' := fun h => hc (by rw [h]; decide)
      rw [hb, splitOn, if_neg hne]
      cases cs with
      | nil => rfl
      | cons d ds =>
        simp only
        cases hs : splitOn ' ' (List.map blank (d :: ds)) with
        | nil => exact absurd hs (splitOn_ne_nil _ _)
        | cons y ys =>
          rw [hs] at ih
          by_cases hd : isXmlSpace d = true
          · rw [if_pos hd, ih]
            have : y = [] := by
              rw [List.map_cons, blank, if_pos hd, splitOn, if_pos rfl] at hs
              simp only [List.cons.injEq] at hs
              exact hs.1.symm
            subst this
            simp
          · rw [if_neg hd, ih]
            have hy : y ≠ [] := by
              have hb' : blank d = d := by rw [blank, if_neg hd]
              have hne' : d ≠ ' ' := fun h => hd (by rw [h]; decide)
              rw [List.map_cons, hb', splitOn, if_neg hne'] at hs
              split at hs <;> simp only [List.cons.injEq] at hs <;> rw [← hs.1] <;> simp
            simp [hy]

theorem isWord_iff (w s : Str) (hw : w ≠ []) (hn : ∀ c ∈ w, isXmlSpace c = false) : w ∈ xmlWords s ↔ IsWord w s := by
  rw [xmlWords_eq, List.mem_filter, mem_splitOn, IsWord]
  have hsp : ∀ c ∈ w, c ∉ t!" \t\n\r" := by
    intro c hc h; rw [← isXmlSpace_iff, hn c hc] at h; simp at h
  have hbl : ∀ c, blank c = ' ' ↔ isXmlSpace c = true := by
    intro c
    rw [blank]
    split
    · next h => simp [h]
    · next h =>
      constructor
      · intro h'; subst h'; decide
      · intro h'; exact absurd h' h
  have hself : ∀ v : Str, v.map blank = w → v = w := by
    intro v hv
    subst hv
    have : ∀ l : Str, (∀ c ∈ l.map blank, isXmlSpace c = false) → l = l.map blank := by
      intro l
      induction l with
      | nil => simp
      | cons a l ih =>
        intro h
        have h1 := h (blank a) (by simp)
        have h2 : blank a = a := by
          rw [blank]
          split
          · next ha => rw [blank, if_pos ha] at h1; exact absurd h1 (by decide)
          · rfl
        rw [List.map_cons, h2, ← ih fun c hc => h c (by simp [hc])]
    exact this v hn
  have hws : w.map blank = w := by
    have : ∀ c ∈ w, blank c = c := fun c hc => by rw [blank, hn c hc]; rfl
    exact (List.map_congr_left this).trans (by simp)
  constructor
  · rintro ⟨⟨-, pre, post, h1, h2, h3⟩, -⟩
    obtain ⟨u, v, rfl, hu, hv⟩ := List.map_eq_append_iff.1 h1
    obtain ⟨u1, u2, rfl, hu1, hu2⟩ := List.map_eq_append_iff.1 hu
    rw [hself u2 hu2]
    refine ⟨u1, v, rfl, hw, hsp, ?_, ?_⟩
    · rw [← hu1] at h2
      rcases h2 with h2 | h2
      · exact .inl (by simpa using h2)
      · rw [List.getLast?_map, Option.map_eq_some_iff] at h2
        obtain ⟨c, hc, hc'⟩ := h2
        exact .inr ⟨c, (isXmlSpace_iff c).1 ((hbl c).1 hc'), hc⟩
    · rw [← hv] at h3
      rcases h3 with h3 | h3
      · exact .inl (by simpa using h3)
      · rw [List.head?_map, Option.map_eq_some_iff] at h3
        obtain ⟨c, hc, hc'⟩ := h3
        exact .inr ⟨c, (isXmlSpace_iff c).1 ((hbl c).1 hc'), hc⟩
  · rintro ⟨pre, post, rfl, -, -, h2, h3⟩
    refine ⟨⟨fun h => hsp ' ' h (by simp), pre.map blank, post.map blank, by simp [hws], ?_, ?_⟩, by simp [hw]⟩
    · rcases h2 with rfl | ⟨c, hc, h2⟩
      · exact .inl rfl
      · exact .inr (by rw [List.getLast?_map, h2, Option.map_some, (hbl c).2 ((isXmlSpace_iff c).2 hc)])
    · rcases h3 with rfl | ⟨c, hc, h3⟩
      · exact .inl rfl
      · exact .inr (by rw [List.head?_map, h3, Option.map_some, (hbl c).2 ((isXmlSpace_iff c).2 hc)])

theorem infix_words (w : Str) (ws : List Str) (hw : w ≠ []) (hs : ' ' ∉ w) (hws : ∀ v ∈ ws, ' ' ∉ v) :
    (∃ a b, t!" " ++ join t!" " ws ++ t!" " = a ++ (t!" " ++ w ++ t!" ") ++ b) ↔ w ∈ ws := by
  by_cases hn : ws = []
  · subst hn
    simp only [List.not_mem_nil, iff_false, not_exists]
    intro a b h
    have := congrArg List.length h
    simp [join] at this
    cases w with
    | nil => exact hw rfl
    | cons => simp at this; omega
  have hj : t!" " ++ join t!" " ws ++ t!" " = join t!" " ([] :: (ws ++ [[]])) := by
    rw [join_cons_of_ne _ _ _ (by simp)]
    have : ∀ l : List Str, l ≠ [] → join t!" " (l ++ [[]]) = join t!" " l ++ t!" " := by
      intro l
      induction l with
      | nil => simp
      | cons x r ih =>
        intro _
        cases r with
        | nil => simp [join]
        | cons y r =>
          rw [List.cons_append, join_cons_of_ne _ _ _ (by simp), ih (by simp), join_cons_of_ne _ _ (y :: r) (by simp)]
          simp
    rw [this ws hn]; simp
  constructor
  · rintro ⟨a, b, h⟩
    have h1 : splitOn ' ' (join t!" " ([] :: (ws ++ [[]]))) = [] :: (ws ++ [[]]) := by
      refine splitOn_join ' ' _ (by simp) ?_
      intro p hp
      rcases List.mem_cons.1 hp with rfl | hp
      · simp
      · rcases List.mem_append.1 hp with hp | hp
        · exact hws p hp
        · simp at hp; subst hp; simp
    rw [← hj, h] at h1
    have h2 : w ∈ splitOn ' ' (a ++ (t!" " ++ w ++ t!" ") ++ b) := by
      rw [mem_splitOn]
      exact ⟨hs, a ++ t!" ", t!" " ++ b, by simp, .inr (by simp), .inr rfl⟩
    rw [h1] at h2
    simp only [List.mem_cons, List.mem_append, List.not_mem_nil, or_false] at h2
    rcases h2 with h2 | h2 | h2
    · exact absurd h2 hw
    · exact h2
    · exact absurd h2 hw
  · intro h
    have h1 : w ∈ splitOn ' ' (join t!" " ws) := by rw [splitOn_join ' ' ws hn hws]; exact h
    obtain ⟨-, pre, post, h2, h3, h4⟩ := (mem_splitOn _ _ _).1 h1
    rw [h2]
    have hpre : ∃ a, t!" " ++ pre = a ++ t!" " := by
      rcases h3 with rfl | h3
      · exact ⟨[], rfl⟩
      · rcases List.eq_nil_or_concat pre with rfl | ⟨p, d, rfl⟩
        · exact ⟨[], rfl⟩
        · simp at h3; subst h3; exact ⟨' ' :: p, by simp⟩
    have hpost : ∃ b, post ++ t!" " = t!" " ++ b := by
      rcases h4 with rfl | h4
      · exact ⟨[], rfl⟩
      · cases post with
        | nil => exact ⟨[], rfl⟩
        | cons d p => simp at h4; subst h4; exact ⟨p ++ t!" ", rfl⟩
    obtain ⟨a, ha⟩ := hpre
    obtain ⟨b, hb⟩ := hpost
    refine ⟨a, b, ?_⟩
    calc t!" " ++ (pre ++ w ++ post) ++ t!" " = (t!" " ++ pre) ++ w ++ (post ++ t!" ") := by simp
      _ = _ := by rw [ha, hb]; simp

/-- The XPath expression finds the links that have the word in their `rel`. -/
theorem relMatches_iff (rel : Str) (link : Elem) (hw : rel ≠ []) (hn : ∀ c ∈ rel, isXmlSpace c = false) :
    relMatches rel link = true ↔ IsWord rel ((link.get t!"rel").getD []) := by
  rw [relMatches, hasInfix_iff, infix_words, isWord_iff _ _ hw hn]
  · exact hw
  · intro h; exact absurd (hn ' ' h) (by decide)
  · intro v hv
    rw [xmlWords_eq, List.mem_filter] at hv
    exact splitOn_pieces _ _ _ hv.1

end Discover
