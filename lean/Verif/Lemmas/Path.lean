import Verif.Model.Urinorm
import Verif.Spec.Path
import Verif.Lemmas.Py
/-! Helper lemmas for dot-segment removal. -/

namespace Urinorm
open Py Spec

theorem absPath_cons (s : Str) (r : List Str) : absPath (s :: r) = '/' :: s ++ absPath r := rfl

theorem absPath_nil : absPath [] = [] := rfl

theorem absPath_append (a b : List Str) : absPath (a ++ b) = absPath a ++ absPath b := by
  simp [absPath]

theorem absPath_eq_nil (r : List Str) : absPath r = [] ↔ r = [] := by
  cases r <;> simp [absPath]

/-- either empty or starting with a slash -/
theorem absPath_head (r : List Str) : absPath r = [] ∨ ∃ t, absPath r = '/' :: t := by
  cases r with
  | nil => exact .inl rfl
  | cons s r => exact .inr ⟨_, rfl⟩

/-- a text without slash ends where the next segment starts -/
theorem append_absPath_inj (s t : Str) (r q : List Str) (hs : '/' ∉ s) (ht : '/' ∉ t)
    (h : s ++ absPath r = t ++ absPath q) : s = t ∧ absPath r = absPath q := by
  induction s generalizing t with
  | nil =>
    cases t with
    | nil => simpa using h
    | cons b t =>
      rcases absPath_head r with hr | ⟨u, hr⟩
      · simp [hr] at h
      · rw [hr] at h; simp at h; exact absurd h.1 (by rintro rfl; simp at ht)
  | cons a s ih =>
    cases t with
    | nil =>
      rcases absPath_head q with hr | ⟨u, hr⟩
      · simp [hr] at h
      · rw [hr] at h; simp at h; exact absurd h.1 (by rintro rfl; simp at hs)
    | cons b t =>
      simp only [List.mem_cons, not_or, List.cons_append, List.cons.injEq] at *
      obtain ⟨h1, h2⟩ := ih t hs.2 ht.2 h.2
      exact ⟨⟨h.1, h1⟩, h2⟩

theorem append_absPath_eq_iff (s t : Str) (r : List Str) (hs : '/' ∉ s) (ht : '/' ∉ t) :
    s ++ absPath r = t ↔ s = t ∧ r = [] := by
  constructor
  · intro h
    have := append_absPath_inj s t r [] hs ht (by simpa [absPath] using h)
    exact ⟨this.1, (absPath_eq_nil r).1 this.2⟩
  · rintro ⟨rfl, rfl⟩; simp [absPath]

theorem startsWith_append_slash (s t : Str) (r : List Str) (hs : '/' ∉ s) (ht : '/' ∉ t) :
    startsWith (s ++ absPath r) (t ++ ['/']) = true ↔ s = t ∧ r ≠ [] := by
  rw [startsWith_iff]
  constructor
  · rintro ⟨u, h⟩
    have e : t ++ ['/'] ++ u = t ++ absPath (splitOn '/' u) := by
      have : ∀ u : Str, '/' :: u = absPath (splitOn '/' u) := by
        intro u
        have hj := join_splitOn '/' u
        have key : ∀ l : List Str, l ≠ [] → '/' :: join ['/'] l = absPath l := by
          intro l
          induction l with
          | nil => intro h; contradiction
          | cons x l ih =>
            intro _
            cases l with
            | nil => simp [join, absPath]
            | cons y l =>
              rw [join_cons_cons, absPath_cons, ← ih (by simp)]; simp
        rw [← key _ (splitOn_ne_nil '/' u), hj]
      rw [List.append_assoc, List.singleton_append, this]
    rw [e] at h
    obtain ⟨h1, h2⟩ := append_absPath_inj s t _ _ hs ht h
    refine ⟨h1, ?_⟩
    rintro rfl
    have := (absPath_eq_nil _).1 h2.symm
    exact splitOn_ne_nil '/' u this
  · rintro ⟨rfl, hr⟩
    cases r with
    | nil => contradiction
    | cons x r => exact ⟨x ++ absPath r, by simp [absPath_cons]⟩

/-- every text is its first segment followed by an absolute path -/
theorem eq_append_absPath (p : Str) :
    ∃ s r, p = s ++ absPath r ∧ '/' ∉ s ∧ (∀ x ∈ r, '/' ∉ x) ∧ splitOn '/' p = s :: r := by
  have key : ∀ l : List Str, ∀ x, join ['/'] (x :: l) = x ++ absPath l := by
    intro l
    induction l with
    | nil => intro x; simp [join, absPath]
    | cons y l ih => intro x; rw [join_cons_cons, ih y, absPath_cons]; simp
  have hp := splitOn_pieces '/' p
  have hj := join_splitOn '/' p
  cases h : splitOn '/' p with
  | nil => exact absurd h (splitOn_ne_nil _ _)
  | cons s r =>
    rw [h] at hp hj
    refine ⟨s, r, ?_, hp s (by simp), fun x hx => hp x (by simp [hx]), rfl⟩
    rw [← hj, key]

theorem splitOn_append_absPath (s : Str) (r : List Str) (hs : '/' ∉ s) (hr : ∀ x ∈ r, '/' ∉ x) :
    splitOn '/' (s ++ absPath r) = s :: r := by
  induction r generalizing s with
  | nil => simp [absPath]; exact splitOn_not_mem _ _ hs
  | cons x r ih =>
    rw [absPath_cons, List.cons_append, splitOn_append _ _ _ hs, ih x (hr x (by simp))
      (fun y hy => hr y (by simp [hy]))]

theorem takeWhile_seg (s : Str) (r : List Str) (hs : '/' ∉ s) :
    (s ++ absPath r).takeWhile (· != '/') = s ∧ (s ++ absPath r).dropWhile (· != '/') = absPath r := by
  induction s with
  | nil => rcases absPath_head r with h | ⟨u, h⟩ <;> simp [h]
  | cons a s ih =>
    simp only [List.mem_cons, not_or] at hs
    have : (a != '/') = true := by simp [Ne.symm hs.1]
    simp [this, ih hs.2]

/-- segment-level version of the loop; the stack holds raw texts, most recent first -/
def normAbs (st : List Str) : List Str → List Str
  | [] => st
  | s :: r =>
    if s = t!"." then (if r = [] then t!"/" :: st else normAbs st r)
    else if s = t!".." then (if r = [] then t!"/" :: st.tail else normAbs st.tail r)
    else normAbs (('/' :: s) :: st) r

theorem rdsLoop_abs (segs : List Str) (hs : ∀ s ∈ segs, '/' ∉ s) (fuel : Nat) (st : List Str)
    (hf : (absPath segs).length ≤ fuel) :
    rdsLoop fuel st (absPath segs) = normAbs st segs := by
  induction segs generalizing fuel st with
  | nil => cases fuel <;> simp [rdsLoop, absPath, normAbs]
  | cons s r ih =>
    have hs' := hs s (by simp)
    have hr := fun x hx => hs x (List.mem_cons_of_mem s hx)
    obtain ⟨fuel, rfl⟩ : ∃ k, fuel = k + 1 := by
      cases fuel with
      | zero => simp [absPath_cons] at hf
      | succ k => exact ⟨k, rfl⟩
    have hlen : s.length + (absPath r).length ≤ fuel := by
      simp [absPath_cons] at hf; omega
    have e1 : startsWith (absPath (s :: r)) t!"../" = false := rfl
    have e2 : startsWith (absPath (s :: r)) t!"./" = false := rfl
    have e3 : startsWith (absPath (s :: r)) t!"/./" = true ↔ s = t!"." ∧ r ≠ [] := by
      have := startsWith_append_slash s t!"." r hs' (by decide)
      rw [← this]; rfl
    have e4 : absPath (s :: r) = t!"/." ↔ s = t!"." ∧ r = [] := by
      rw [← append_absPath_eq_iff s t!"." r hs' (by decide), absPath_cons]; simp
    have e5 : startsWith (absPath (s :: r)) t!"/../" = true ↔ s = t!".." ∧ r ≠ [] := by
      have := startsWith_append_slash s t!".." r hs' (by decide)
      rw [← this]; rfl
    have e6 : absPath (s :: r) = t!"/.." ↔ s = t!".." ∧ r = [] := by
      rw [← append_absPath_eq_iff s t!".." r hs' (by decide), absPath_cons]; simp
    have e7 : ¬ (absPath (s :: r) = t!".." ∨ absPath (s :: r) = t!".") := by simp [absPath_cons]
    have e0 : absPath (s :: r) ≠ [] := by simp [absPath_cons]
    have eseg : firstSegment (absPath (s :: r)) = ('/' :: s, absPath r) := by
      obtain ⟨h1, h2⟩ := takeWhile_seg s r hs'
      simp only [absPath_cons, List.cons_append, firstSegment, h1, h2]
    have eslash : ∀ k st, 1 ≤ k → rdsLoop k st t!"/" = t!"/" :: st := by
      intro k st hk
      obtain ⟨k, rfl⟩ : ∃ j, k = j + 1 := ⟨k - 1, by omega⟩
      have : ∀ st', rdsLoop k st' [] = st' := by intro st'; cases k <;> simp [rdsLoop]
      simp [rdsLoop, startsWith, firstSegment, this]
    rw [rdsLoop, if_neg e0, e1, e2]
    simp only [Bool.false_eq_true, ↓reduceIte]
    rw [normAbs]
    by_cases hd1 : s = t!"."
    · subst hd1
      by_cases hrn : r = []
      · subst hrn
        rw [if_neg (by rw [e3]; simp), if_pos (by rw [e4]; simp), eslash _ _ (by simp at hlen; omega)]
        simp
      · rw [if_pos (by rw [e3]; exact ⟨rfl, hrn⟩), if_pos rfl, if_neg hrn]
        have : List.drop 2 (absPath (t!"." :: r)) = absPath r := rfl
        rw [this, ih hr _ _ (by omega)]
    · rw [if_neg (by rw [e3]; simp [hd1]), if_neg (by rw [e4]; simp [hd1]), if_neg hd1]
      by_cases hd2 : s = t!".."
      · subst hd2
        by_cases hrn : r = []
        · subst hrn
          rw [if_neg (by rw [e5]; simp), if_pos (by rw [e6]; simp), eslash _ _ (by simp at hlen; omega)]
          simp
        · rw [if_pos (by rw [e5]; exact ⟨rfl, hrn⟩), if_pos rfl, if_neg hrn]
          have : List.drop 3 (absPath (t!".." :: r)) = absPath r := rfl
          rw [this, ih hr _ _ (by omega)]
      · rw [if_neg (by rw [e5]; simp [hd2]), if_neg (by rw [e6]; simp [hd2]), if_neg hd2, if_neg e7,
          eseg]
        exact ih hr _ _ (by omega)

/-- segment-level version for a path that starts with the (slash-free) segment `s` -/
def normRel (s : Str) : List Str → List Str
  | [] => if s = [] ∨ s = t!"." ∨ s = t!".." then [] else [s]
  | x :: r =>
    if s = t!"." ∨ s = t!".." then
      normRel x r
    else if s = [] then normAbs [] (x :: r)
    else normAbs [s] (x :: r)

theorem rdsLoop_nil (k : Nat) (st : List Str) : rdsLoop k st [] = st := by
  cases k <;> simp [rdsLoop]

theorem rdsLoop_rel (s : Str) (r : List Str) (hs : '/' ∉ s) (hr : ∀ x ∈ r, '/' ∉ x) (fuel : Nat)
    (hf : (s ++ absPath r).length ≤ fuel) :
    rdsLoop fuel [] (s ++ absPath r) = normRel s r := by
  induction r generalizing fuel s with
  | nil =>
    simp only [absPath_nil, List.append_nil] at *
    rw [normRel]
    by_cases h0 : s = []
    · subst h0; simp [rdsLoop_nil]
    obtain ⟨fuel, rfl⟩ : ∃ k, fuel = k + 1 := by
      cases fuel with
      | zero => simp at hf; contradiction
      | succ k => exact ⟨k, rfl⟩
    have hno : ∀ t, '/' ∈ t → startsWith s t = false := by
      intro t ht
      cases h : startsWith s t with
      | false => rfl
      | true =>
        obtain ⟨u, hu⟩ := (startsWith_iff s t).1 h
        exact absurd (by rw [hu]; simp [ht]) hs
    rw [rdsLoop, if_neg h0, hno _ (by decide), hno _ (by decide), hno _ (by decide), hno _ (by decide)]
    have h1 : s ≠ t!"/." := by rintro rfl; simp at hs
    have h2 : s ≠ t!"/.." := by rintro rfl; simp at hs
    simp only [Bool.false_eq_true, ↓reduceIte, h1, h2, rdsLoop_nil, h0, false_or]
    by_cases hd : s = t!".." ∨ s = t!"."
    · rw [if_pos hd, if_pos (by grind)]
    · rw [if_neg hd, if_neg (by grind)]
      have : firstSegment s = (s, []) := by
        have := takeWhile_seg s [] hs
        simp only [absPath_nil, List.append_nil] at this
        cases s with
        | nil => contradiction
        | cons a t =>
          have ha : a ≠ '/' := by rintro rfl; simp at hs
          rw [firstSegment]
          · rw [this.1, this.2]
          · intro r' h; simp at h; exact ha h.1
      rw [this, rdsLoop_nil]
  | cons x r ih =>
    have hx := hr x (by simp)
    have hr' := fun y hy => hr y (List.mem_cons_of_mem x hy)
    rw [normRel]
    by_cases h0 : s = []
    · subst h0
      simp only [List.nil_append] at *
      rw [if_neg (by decide)]
      simp only [↓reduceIte]
      exact rdsLoop_abs (x :: r) hr fuel [] hf
    obtain ⟨fuel, rfl⟩ : ∃ k, fuel = k + 1 := by
      cases fuel with
      | zero => simp [h0] at hf
      | succ k => exact ⟨k, rfl⟩
    have hlen : s.length + (absPath (x :: r)).length ≤ fuel + 1 := by
      simpa using hf
    have hxl : (x ++ absPath r).length + 1 = (absPath (x :: r)).length := by
      simp [absPath_cons]
    have hpos : 0 < s.length := by
      cases s with
      | nil => contradiction
      | cons _ _ => simp
    by_cases hd : s = t!"." ∨ s = t!".."
    · rw [if_pos hd]
      rcases hd with rfl | rfl
      · have : rdsLoop (fuel + 1) [] (t!"." ++ absPath (x :: r)) = rdsLoop fuel [] (x ++ absPath r) := by
          rw [rdsLoop]
          simp [absPath_cons, startsWith]
        rw [this]
        exact ih x hx hr' fuel (by simp at hlen; omega)
      · have : rdsLoop (fuel + 1) [] (t!".." ++ absPath (x :: r)) = rdsLoop fuel [] (x ++ absPath r) := by
          rw [rdsLoop]
          simp [absPath_cons, startsWith]
        rw [this]
        exact ih x hx hr' fuel (by simp at hlen; omega)
    · rw [if_neg hd, if_neg h0]
      have hfirst : ∃ a t, s = a :: t ∧ a ≠ '/' := by
        cases s with
        | nil => contradiction
        | cons a t => exact ⟨a, t, rfl, by rintro rfl; simp at hs⟩
      have hnoslash : ∀ u, startsWith (s ++ absPath (x :: r)) ('/' :: u) = false := by
        intro u
        obtain ⟨a, t, rfl, ha⟩ := hfirst
        simp [startsWith, List.isPrefixOf, Ne.symm ha]
      have hd1 : ¬ startsWith (s ++ absPath (x :: r)) t!"../" = true := by
        rw [show t!"../" = t!".." ++ ['/'] from rfl, startsWith_append_slash _ _ _ hs (by decide)]
        grind
      have hd2 : ¬ startsWith (s ++ absPath (x :: r)) t!"./" = true := by
        rw [show t!"./" = t!"." ++ ['/'] from rfl, startsWith_append_slash _ _ _ hs (by decide)]
        grind
      have hne : s ++ absPath (x :: r) ≠ [] := by simp [h0]
      have hno1 : ∀ u, s ++ absPath (x :: r) ≠ '/' :: u := by
        intro u h
        obtain ⟨a, t, rfl, ha⟩ := hfirst
        simp at h; exact ha h.1
      have hno2 : ¬ (s ++ absPath (x :: r) = t!".." ∨ s ++ absPath (x :: r) = t!".") := by
        rw [append_absPath_eq_iff _ _ _ hs (by decide), append_absPath_eq_iff _ _ _ hs (by decide)]
        simp
      have eseg : firstSegment (s ++ absPath (x :: r)) = (s, absPath (x :: r)) := by
        obtain ⟨h1, h2⟩ := takeWhile_seg s (x :: r) hs
        obtain ⟨a, t, rfl, ha⟩ := hfirst
        rw [List.cons_append, firstSegment]
        · rw [List.cons_append] at h1 h2; rw [h1, h2]
        · intro r' h; simp at h; exact ha h.1
      rw [rdsLoop, if_neg hne, if_neg hd1, if_neg hd2, hnoslash, hnoslash]
      simp only [Bool.false_eq_true, ↓reduceIte]
      rw [if_neg (hno1 _), if_neg (hno1 _), if_neg hno2, eseg]
      exact rdsLoop_abs (x :: r) hr fuel [s] (by omega)

theorem rds_eq (p s : Str) (r : List Str) (hp : p = s ++ absPath r) (hs : '/' ∉ s)
    (hr : ∀ x ∈ r, '/' ∉ x) : removeDotSegments p = (normRel s r).reverse.flatten := by
  subst hp
  rw [removeDotSegments, rdsLoop_rel s r hs hr _ (Nat.le_refl _)]

theorem normAbs_walk (st : List Str) (segs : List Str) :
    (normAbs (st.reverse.map ('/' :: ·)) segs).reverse.flatten = absPath (walk st segs) := by
  induction segs generalizing st with
  | nil => simp [normAbs, walk, absPath]
  | cons s r ih =>
    have htail : (st.reverse.map ('/' :: ·)).tail = st.dropLast.reverse.map ('/' :: ·) := by
      rw [← List.map_tail, List.tail_reverse]
    have hpush : ('/' :: s) :: st.reverse.map ('/' :: ·) = (st ++ [s]).reverse.map ('/' :: ·) := by simp
    cases r with
    | nil =>
      rw [normAbs, walk]
      split
      · simp [absPath]
      · split
        · rw [htail]; simp [absPath]
        · simp [normAbs, absPath]
    | cons t r =>
      rw [normAbs, walk]
      split
      · exact ih st
      · split
        · rw [htail]; exact ih _
        · rw [hpush]; exact ih _

theorem walk_no_dot (here segs : List Str) (hh : ∀ s ∈ here, ¬ IsDot s) :
    ∀ s ∈ walk here segs, ¬ IsDot s := by
  fun_induction walk here segs with
  | case1 here => exact hh
  | case2 here => intro s hs; rcases List.mem_append.1 hs with h | h
                  · exact hh s h
                  · simp at h; subst h; decide
  | case3 here => intro s hs; rcases List.mem_append.1 hs with h | h
                  · exact hh s (List.dropLast_subset _ h)
                  · simp at h; subst h; decide
  | case4 here x h1 h2 => intro s hs; rcases List.mem_append.1 hs with h | h
                          · exact hh s h
                          · simp at h; subst h; rintro (h | h) <;> contradiction
  | case5 here t r ih => exact ih hh
  | case6 here t r _ ih => exact ih (fun s hs => hh s (List.dropLast_subset _ hs))
  | case7 here x t r h1 h2 ih =>
    refine ih (fun s hs => ?_)
    rcases List.mem_append.1 hs with h | h
    · exact hh s h
    · simp at h; subst h; rintro (h | h) <;> contradiction

theorem walk_noslash (here segs : List Str) (hh : ∀ s ∈ here, '/' ∉ s) (hs : ∀ s ∈ segs, '/' ∉ s) :
    ∀ s ∈ walk here segs, '/' ∉ s := by
  fun_induction walk here segs with
  | case1 here => exact hh
  | case2 here => intro s h; rcases List.mem_append.1 h with h | h
                  · exact hh s h
                  · simp at h; subst h; simp
  | case3 here => intro s h; rcases List.mem_append.1 h with h | h
                  · exact hh s (List.dropLast_subset _ h)
                  · simp at h; subst h; simp
  | case4 here x h1 h2 => intro s h; rcases List.mem_append.1 h with h | h
                          · exact hh s h
                          · simp at h; subst h; exact hs _ (by simp)
  | case5 here t r ih => exact ih hh (fun s h => hs s (by simp [h]))
  | case6 here t r _ ih =>
    exact ih (fun s h => hh s (List.dropLast_subset _ h)) (fun s h => hs s (List.mem_cons_of_mem _ h))
  | case7 here x t r h1 h2 ih =>
    refine ih (fun s h => ?_) (fun s h => hs s (List.mem_cons_of_mem _ h))
    rcases List.mem_append.1 h with h | h
    · exact hh s h
    · simp at h; subst h; exact hs _ (by simp)

theorem walk_of_no_dot (here segs : List Str) (h : ∀ s ∈ segs, ¬ IsDot s) :
    walk here segs = here ++ segs := by
  fun_induction walk here segs with
  | case1 here => simp
  | case2 here => exact absurd (Or.inl rfl) (h _ (by simp))
  | case3 here => exact absurd (Or.inr rfl) (h _ (by simp))
  | case4 here x h1 h2 => rfl
  | case5 here t r ih => exact absurd (Or.inl rfl) (h _ (by simp))
  | case6 here t r _ ih => exact absurd (Or.inr rfl) (h _ (by simp))
  | case7 here x t r h1 h2 ih => rw [ih (fun s hs => h s (List.mem_cons_of_mem _ hs))]; simp

theorem walk_ne_nil (here segs : List Str) (h : segs ≠ []) : walk here segs ≠ [] := by
  fun_induction walk here segs with
  | case1 => contradiction
  | case2 => simp
  | case3 => simp
  | case4 => simp
  | case5 here t r ih => exact ih (by simp)
  | case6 here t r _ ih => exact ih (by simp)
  | case7 here x t r h1 h2 ih => exact ih (by simp)

/-- a segment of a result: no slash, not `.` or `..` -/
def OkSeg (s : Str) : Prop := '/' ∉ s ∧ ¬ IsDot s

/-- shape of the output stack (most recent first) -/
inductive GoodStack : List Str → Prop
  | nil : GoodStack []
  | base (s : Str) : OkSeg s → GoodStack [s]
  | push (s : Str) (st : List Str) : OkSeg s → GoodStack st → GoodStack (('/' :: s) :: st)

theorem GoodStack.tail {st : List Str} (h : GoodStack st) : GoodStack st.tail := by
  cases h with
  | nil => exact .nil
  | base s h => exact .nil
  | push s st h1 h2 => exact h2

theorem okSeg_nil : OkSeg [] := ⟨by simp, by decide⟩

theorem GoodStack.flatten {st : List Str} (h : GoodStack st) :
    ∃ s r, st.reverse.flatten = s ++ absPath r ∧ OkSeg s ∧ ∀ x ∈ r, OkSeg x := by
  induction h with
  | nil => exact ⟨[], [], by simp [absPath], okSeg_nil, by simp⟩
  | base s h => exact ⟨s, [], by simp [absPath], h, by simp⟩
  | push s st h1 _ ih =>
    obtain ⟨s0, r, he, hs, hr⟩ := ih
    refine ⟨s0, r ++ [s], ?_, hs, ?_⟩
    · rw [List.reverse_cons, List.flatten_append, he, absPath_append]; simp [absPath]
    · intro x hx
      rcases List.mem_append.1 hx with h | h
      · exact hr x h
      · simp at h; subst h; exact h1

theorem normAbs_good (segs st : List Str) (hs : ∀ s ∈ segs, '/' ∉ s) (h : GoodStack st) :
    GoodStack (normAbs st segs) := by
  induction segs generalizing st with
  | nil => exact h
  | cons s r ih =>
    have hr := fun x hx => hs x (List.mem_cons_of_mem s hx)
    rw [normAbs]
    split
    · split
      · exact .push [] st okSeg_nil h
      · exact ih st hr h
    · split
      · split
        · exact .push [] _ okSeg_nil h.tail
        · exact ih _ hr h.tail
      · rename_i h1 h2
        exact ih _ hr (.push s st ⟨hs s (by simp), by rintro (h | h) <;> contradiction⟩ h)

theorem normRel_good (s : Str) (r : List Str) (hs : '/' ∉ s) (hr : ∀ x ∈ r, '/' ∉ x) :
    GoodStack (normRel s r) := by
  induction r generalizing s with
  | nil =>
    rw [normRel]
    split
    · exact .nil
    · rename_i h
      exact .base s ⟨hs, by rintro (h' | h') <;> simp [h'] at h⟩
  | cons x r ih =>
    rw [normRel]
    split
    · exact ih x (hr x (by simp)) (fun y hy => hr y (by simp [hy]))
    · rename_i h
      split
      · exact normAbs_good _ _ hr .nil
      · exact normAbs_good _ _ hr (.base s ⟨hs, h⟩)

theorem normAbs_of_no_dot (segs st : List Str) (h : ∀ s ∈ segs, ¬ IsDot s) :
    (normAbs st segs).reverse.flatten = st.reverse.flatten ++ absPath segs := by
  induction segs generalizing st with
  | nil => simp [normAbs, absPath]
  | cons s r ih =>
    have h1 : s ≠ t!"." := fun e => h s (by simp) (.inl e)
    have h2 : s ≠ t!".." := fun e => h s (by simp) (.inr e)
    rw [normAbs, if_neg h1, if_neg h2, ih _ (fun x hx => h x (List.mem_cons_of_mem s hx))]
    simp [absPath_cons]

theorem normRel_of_no_dot (s : Str) (r : List Str) (h : ∀ x ∈ s :: r, ¬ IsDot x) :
    (normRel s r).reverse.flatten = s ++ absPath r := by
  have h1 : s ≠ t!"." := fun e => h s (by simp) (.inl e)
  have h2 : s ≠ t!".." := fun e => h s (by simp) (.inr e)
  cases r with
  | nil =>
    simp only [normRel, h1, h2, or_false]
    split
    · rename_i h; simp [h, absPath]
    · simp [absPath]
  | cons x r =>
    rw [normRel, if_neg (by simp [h1, h2])]
    have hr : ∀ y ∈ x :: r, ¬ IsDot y := fun y hy => h y (List.mem_cons_of_mem s hy)
    split
    · rename_i h0; subst h0; rw [normAbs_of_no_dot _ _ hr]; simp
    · rw [normAbs_of_no_dot _ _ hr]; simp

/-- every absolute path is the path of its segments -/
theorem abs_eq_absPath (q : Str) :
    '/' :: q = absPath (splitOn '/' q) ∧ ∀ x ∈ splitOn '/' q, '/' ∉ x := by
  obtain ⟨s, r, h1, h2, h3, h4⟩ := eq_append_absPath q
  rw [h4]
  refine ⟨by rw [absPath_cons, h1]; rfl, ?_⟩
  intro x hx
  rcases List.mem_cons.1 hx with rfl | hx
  · exact h2
  · exact h3 x hx

theorem rds_abs (segs : List Str) (hs : ∀ s ∈ segs, '/' ∉ s) :
    removeDotSegments (absPath segs) = absPath (walk [] segs) := by
  rw [removeDotSegments, rdsLoop_abs segs hs _ _ (Nat.le_refl _)]
  exact normAbs_walk [] segs

theorem rds_no_dot (p : Str) : ∀ s ∈ splitOn '/' (removeDotSegments p), ¬ IsDot s := by
  obtain ⟨s, r, h1, h2, h3, -⟩ := eq_append_absPath p
  rw [rds_eq p s r h1 h2 h3]
  obtain ⟨s', r', he, hs', hr'⟩ := (normRel_good s r h2 h3).flatten
  rw [he, splitOn_append_absPath s' r' hs'.1 (fun x hx => (hr' x hx).1)]
  intro x hx
  rcases List.mem_cons.1 hx with rfl | hx
  · exact hs'.2
  · exact (hr' x hx).2

theorem rds_of_no_dot (p : Str) (h : ∀ s ∈ splitOn '/' p, ¬ IsDot s) : removeDotSegments p = p := by
  obtain ⟨s, r, h1, h2, h3, h4⟩ := eq_append_absPath p
  rw [rds_eq p s r h1 h2 h3, normRel_of_no_dot s r (by rw [← h4]; exact h), ← h1]

/-- The loop's result does not depend on the fuel once it is at least the length of the path:
    the Python `while` loop terminates and its result is this one. -/
theorem rdsLoop_fuel (p : Str) (fuel : Nat) (h : p.length ≤ fuel) :
    rdsLoop fuel [] p = rdsLoop p.length [] p := by
  obtain ⟨s, r, h1, h2, h3, -⟩ := eq_append_absPath p
  subst h1
  rw [rdsLoop_rel s r h2 h3 _ h, rdsLoop_rel s r h2 h3 _ (Nat.le_refl _)]

end Urinorm
