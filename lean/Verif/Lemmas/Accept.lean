import Verif.Lemmas.Sort
import Verif.Lemmas.Association
import Verif.Spec.Accept
/-! # Lemmas on content negotiation -/

namespace Accept
open Py Spec

variable {Q : Type} [DecidableEq Q] {F : Floats Q}

/-! ## numbers -/

theorem lt_asymm (hF : Ordered F) {a b : Q} (h : F.lt a b = true) : F.lt b a = false := by
  cases h' : F.lt b a with
  | false => rfl
  | true => have := hF.trans _ _ _ h h'; rw [hF.irrefl] at this; exact absurd this (by decide)

theorem eq_of_not_lt (hF : Ordered F) {a b : Q} (h : F.lt a b = false) (h' : F.lt b a = false) : a = b := by
  by_cases e : a = b
  · exact e
  · rcases hF.total a b e with h1 | h1
    · rw [h1] at h; exact absurd h (by decide)
    · rw [h1] at h'; exact absurd h' (by decide)

/-- `a ≤ b ≤ c` -/
theorem le_trans' (hF : Ordered F) {a b c : Q} (h : F.lt b a = false) (h' : F.lt c b = false) : F.lt c a = false := by
  cases e : F.lt c a with
  | false => rfl
  | true =>
    by_cases ab : a = b
    · subst ab; rw [e] at h'; exact h'
    · rcases hF.total a b ab with h1 | h1
      · have := hF.trans _ _ _ e h1; rw [this] at h'; exact h'
      · rw [h1] at h; exact h

theorem max_spec (hF : Ordered F) (a b : Q) :
    (F.max a b = a ∨ F.max a b = b) ∧ F.lt (F.max a b) a = false ∧ F.lt (F.max a b) b = false := by
  unfold Floats.max
  split
  · next h => exact ⟨.inr rfl, lt_asymm hF h, hF.irrefl _⟩
  · next h => exact ⟨.inl rfl, hF.irrefl _, by simpa using h⟩

theorem greatest_foldl (hF : Ordered F) (l : List Q) (a : Q) : Greatest F a l (l.foldl F.max a) := by
  induction l generalizing a with
  | nil => exact ⟨.inl rfl, hF.irrefl _, by simp⟩
  | cons x r ih =>
    obtain ⟨h1, h2, h3⟩ := ih (F.max a x)
    obtain ⟨m1, m2, m3⟩ := max_spec hF a x
    rw [List.foldl_cons]
    refine ⟨?_, le_trans' hF m2 h2, ?_⟩
    · rcases h1 with h1 | h1
      · rw [h1]; rcases m1 with m | m
        · exact .inl m
        · rw [m]; exact .inr (by simp)
      · exact .inr (List.mem_cons_of_mem _ h1)
    · intro y hy
      rcases List.mem_cons.1 hy with rfl | hy
      · exact le_trans' hF m3 h2
      · exact h3 y hy

theorem greatest_unique (hF : Ordered F) {a : Q} {l : List Q} {p q : Q} (hp : Greatest F a l p) (hq : Greatest F a l q) :
    p = q := by
  apply eq_of_not_lt hF
  · rcases hq.1 with h | h
    · rw [h]; exact hp.2.1
    · exact hp.2.2 _ h
  · rcases hp.1 with h | h
    · rw [h]; exact hq.2.1
    · exact hq.2.2 _ h

theorem greatest_perm {a : Q} {l l' : List Q} (h : l.Perm l') {q : Q} (hq : Greatest F a l q) : Greatest F a l' q :=
  ⟨hq.1.imp id (fun x => h.mem_iff.1 x), hq.2.1, fun x hx => hq.2.2 x (h.mem_iff.2 hx)⟩

/-! ## what is known of the accepted types -/

theorem foldl_default (A : List (Str × Str × Q)) (k : Known Q) :
    (A.foldl (learn F) k).default = (anyhow A).foldl F.max k.default := by
  induction A generalizing k with
  | nil => rfl
  | cons e r ih =>
    rw [List.foldl_cons, ih, learn, anyhow]
    by_cases h : e.1 = t!"*"
    · simp [h, anyhow]
    · by_cases h' : e.2.1 = t!"*" <;> simp [h, h', anyhow]

theorem mainly_cons (e : Str × Str × Q) (r : List (Str × Str × Q)) (main : Str) :
    mainly (e :: r) main = if e.1 ≠ t!"*" ∧ e.2.1 = t!"*" ∧ e.1 = main then e.2.2 :: mainly r main else mainly r main := by
  unfold mainly
  rw [List.filter_cons]
  by_cases h : e.1 ≠ t!"*" ∧ e.2.1 = t!"*" ∧ e.1 = main
  · rw [if_pos h, if_pos (decide_eq_true h)]; rfl
  · rw [if_neg h, if_neg (by simpa using h)]

theorem exactly_cons (e : Str × Str × Q) (r : List (Str × Str × Q)) (main sub : Str) :
    exactly (e :: r) main sub = if e.1 ≠ t!"*" ∧ e.2.1 ≠ t!"*" ∧ e.1 = main ∧ e.2.1 = sub
      then e.2.2 :: exactly r main sub else exactly r main sub := by
  unfold exactly
  rw [List.filter_cons]
  by_cases h : e.1 ≠ t!"*" ∧ e.2.1 ≠ t!"*" ∧ e.1 = main ∧ e.2.1 = sub
  · rw [if_pos h, if_pos (decide_eq_true h)]; rfl
  · rw [if_neg h, if_neg (by simpa using h)]

theorem foldl_mains (A : List (Str × Str × Q)) (k : Known Q) (main : Str) :
    (A.foldl (learn F) k).mains.get? main =
      if mainly A main = [] then k.mains.get? main
      else some ((mainly A main).foldl F.max ((k.mains.get? main).getD F.zero)) := by
  induction A generalizing k with
  | nil => rfl
  | cons e r ih =>
    rw [List.foldl_cons, ih, learn]
    have hc := mainly_cons e r main
    by_cases h : e.1 = t!"*"
    · rw [if_neg (fun x => x.1 h)] at hc
      rw [hc, if_pos h]
    · rw [if_neg h]
      by_cases h' : e.2.1 = t!"*"
      · rw [if_pos h']
        simp only [Dict.get?_set]
        by_cases hm : e.1 = main
        · subst hm
          rw [if_pos ⟨h, h', rfl⟩] at hc
          rw [hc, if_pos rfl, if_neg (List.cons_ne_nil _ _), List.foldl_cons]
          split
          · next e0 => rw [e0]; rfl
          · rfl
        · rw [if_neg (fun x => hm x.2.2)] at hc
          rw [hc, if_neg hm]
      · rw [if_neg (fun x => h' x.2.1)] at hc
        rw [hc, if_neg h']

theorem foldl_subs (A : List (Str × Str × Q)) (k : Known Q) (main sub : Str) :
    (A.foldl (learn F) k).subs.get? (main, sub) =
      if exactly A main sub = [] then k.subs.get? (main, sub)
      else some ((exactly A main sub).foldl F.max ((k.subs.get? (main, sub)).getD F.zero)) := by
  induction A generalizing k with
  | nil => rfl
  | cons e r ih =>
    rw [List.foldl_cons, ih, learn]
    have hc := exactly_cons e r main sub
    by_cases h : e.1 = t!"*"
    · rw [if_neg (fun x => x.1 h)] at hc
      rw [hc, if_pos h]
    · rw [if_neg h]
      by_cases h' : e.2.1 = t!"*"
      · rw [if_neg (fun x => x.2.1 h')] at hc
        rw [hc, if_pos h']
      · rw [if_neg h']
        simp only [Dict.get?_set]
        by_cases hm : e.1 = main ∧ e.2.1 = sub
        · obtain ⟨rfl, rfl⟩ := hm
          rw [if_pos ⟨h, h', rfl, rfl⟩] at hc
          rw [hc, if_pos rfl, if_neg (List.cons_ne_nil _ _), List.foldl_cons]
          split
          · next e0 => rw [e0]; rfl
          · rfl
        · rw [if_neg (fun x => hm x.2.2)] at hc
          have hne : ¬ (e.1, e.2.1) = (main, sub) := fun x => hm (by simpa using x)
          rw [hc, if_neg hne]

theorem isQuality (hF : Ordered F) (A : List (Str × Str × Q)) (main sub : Str) :
    IsQuality F A main sub (quality (known F A) main sub) := by
  unfold IsQuality quality known
  rw [foldl_subs, foldl_mains, foldl_default]
  by_cases h : exactly A main sub = []
  · rw [if_pos h, if_neg (by simp [h])]
    by_cases h' : mainly A main = []
    · rw [if_neg (by simp [h']), if_pos h']
      simp only [Dict.get?_nil, Option.getD_none]
      cases A with
      | nil => exact greatest_foldl hF _ _
      | cons e r => exact greatest_foldl hF _ _
    · rw [if_pos h', if_neg h']
      exact greatest_foldl hF _ _
  · rw [if_neg h, if_pos h]
    exact greatest_foldl hF _ _

theorem isQuality_unique (hF : Ordered F) {A : List (Str × Str × Q)} {main sub : Str} {p q : Q}
    (hp : IsQuality F A main sub p) (hq : IsQuality F A main sub q) : p = q := by
  unfold IsQuality at hp hq
  split at hp
  · next h => rw [if_pos h] at hq; exact greatest_unique hF hp hq
  · next h =>
    rw [if_neg h] at hq
    split at hp
    · next h' => rw [if_pos h'] at hq; exact greatest_unique hF hp hq
    · next h' => rw [if_neg h'] at hq; exact greatest_unique hF hp hq

theorem isQuality_perm {A B : List (Str × Str × Q)} (h : A.Perm B) {main sub : Str} {q : Q}
    (hq : IsQuality F A main sub q) : IsQuality F B main sub q := by
  have he : (exactly A main sub).Perm (exactly B main sub) := (h.filter _).map _
  have hm : (mainly A main).Perm (mainly B main) := (h.filter _).map _
  have ha : (anyhow A).Perm (anyhow B) := (h.filter _).map _
  have e0 : ∀ {α : Type} {l l' : List α}, l.Perm l' → (l = [] ↔ l' = []) := by
    intro α l l' hp
    exact ⟨fun e => by subst e; exact hp.symm.eq_nil, fun e => by subst e; exact hp.eq_nil⟩
  unfold IsQuality at *
  by_cases h1 : exactly A main sub = []
  · rw [if_neg (by simp [h1])] at hq
    rw [if_neg (by simp [(e0 he).1 h1])]
    by_cases h2 : mainly A main = []
    · rw [if_neg (by simp [h2])] at hq
      rw [if_neg (by simp [(e0 hm).1 h2])]
      by_cases h3 : A = []
      · rw [if_pos h3] at hq; rw [if_pos ((e0 h).1 h3)]; exact greatest_perm ha hq
      · rw [if_neg h3] at hq; rw [if_neg (fun x => h3 ((e0 h).2 x))]; exact greatest_perm ha hq
    · rw [if_pos h2] at hq
      rw [if_pos (fun x => h2 ((e0 hm).2 x))]; exact greatest_perm hm hq
  · rw [if_pos h1] at hq
    rw [if_pos (fun x => h1 ((e0 he).2 x))]; exact greatest_perm he hq

/-! ## types -/

theorem splitOn_two (t main sub : Str) : splitOn '/' t = [main, sub] ↔ IsType t main sub := by
  constructor
  · intro h
    have h1 := splitOn_pieces '/' t
    have h2 := join_splitOn '/' t
    rw [h] at h1 h2
    exact ⟨h1 _ (by simp), h1 _ (by simp), by rw [← h2]; simp [join]⟩
  · rintro ⟨h1, h2, rfl⟩
    rw [splitOn_append _ _ _ h1, splitOn_not_mem _ _ h2]

theorem isType_unique {t main sub main' sub' : Str} (h : IsType t main sub) (h' : IsType t main' sub') :
    main = main' ∧ sub = sub' := by
  rw [← splitOn_two] at h h'
  rw [h] at h'; simpa using h'

/-- the quality of a type given as one text -/
def typeQuality (k : Known Q) (t : Str) : Q :=
  match splitOn '/' t with
  | [main, sub] => quality k main sub
  | _ => quality k [] []

theorem typeQuality_eq (k : Known Q) {t main sub : Str} (h : IsType t main sub) : typeQuality k t = quality k main sub := by
  rw [typeQuality, (splitOn_two _ _ _).2 h]

theorem collect_cons (k : Known Q) (i : Nat) (t : Str) (r : List Str) {main sub : Str} (h : IsType t main sub) :
    collect F k i (t :: r) = if typeQuality k t = F.zero then collect F k i r
      else (collect F k (i + 1) r).map ((F.minus (typeQuality k t), i, typeQuality k t, t) :: ·) := by
  rw [typeQuality_eq k h, collect.eq_def]
  simp only [(splitOn_two _ _ _).2 h]
  split
  · rfl
  · cases collect F k (i + 1) r <;> rfl

theorem collect_bad (k : Known Q) (i : Nat) (t : Str) (r : List Str) (h : ¬ ∃ main sub, IsType t main sub) :
    collect F k i (t :: r) = .error .valueError := by
  rw [collect.eq_def]
  simp only
  split
  · next m s e => exact absurd ⟨m, s, (splitOn_two _ _ _).1 e⟩ h
  · rfl

theorem isType_iff (t : Str) : (∃ main sub, IsType t main sub) ↔ t.count '/' = 1 := by
  constructor
  · rintro ⟨main, sub, h1, h2, rfl⟩
    rw [List.count_append, List.count_cons_self, List.count_eq_zero.2 h1, List.count_eq_zero.2 h2]
  · intro h
    have hm : '/' ∈ t := List.count_pos_iff.1 (by omega)
    cases hc : cut '/' t with
    | none => rw [cut_eq_none_iff] at hc; exact absurd hm hc
    | some p =>
      obtain ⟨a, b⟩ := p
      obtain ⟨rfl, ha⟩ := (cut_eq_some_iff _ _ _ _).1 hc
      refine ⟨a, b, ha, ?_, rfl⟩
      rw [List.count_append, List.count_cons_self, List.count_eq_zero.2 ha] at h
      exact List.count_eq_zero.1 (by omega)

theorem collect_error (k : Known Q) (i : Nat) (l : List Str) (e : PyErr) :
    collect F k i l = .error e ↔ e = .valueError ∧ ∃ t ∈ l, t.count '/' ≠ 1 := by
  induction l generalizing i with
  | nil => simp [collect]
  | cons t r ih =>
    by_cases h : ∃ main sub, IsType t main sub
    · obtain ⟨main, sub, hT⟩ := h
      have hc := (isType_iff t).1 ⟨_, _, hT⟩
      rw [collect_cons k i t r hT]
      split
      · rw [ih]; simp [hc]
      · have := ih (i + 1)
        simp only [List.mem_cons, exists_eq_or_imp, hc, ne_eq, not_true, false_or]
        rw [← this]
        cases collect F k (i + 1) r <;> simp [Except.map]
    · rw [collect_bad k i t r h]
      have h1 := fun x => h ((isType_iff t).2 x)
      constructor
      · intro x; injection x with x; exact ⟨x.symm, t, by simp, h1⟩
      · rintro ⟨rfl, -⟩; rfl

/-- sorting with the counter is sorting by the distance alone -/
theorem map_insert (i : Nat) (x : Str × Q) (l : List (Q × Nat × Q × Str)) (hF : Ordered F)
    (h : ∀ y ∈ l, y.1 = F.minus y.2.2.1 ∧ i < y.2.1) :
    (insertBy (rankLe F) (F.minus x.2, i, x.2, x.1) l).map (fun y => (y.2.2.2, y.2.2.1)) =
    insertBy (fun a b => !F.lt (F.minus b.2) (F.minus a.2)) x (l.map fun y => (y.2.2.2, y.2.2.1)) := by
  induction l with
  | nil => rfl
  | cons y r ih =>
    have hy := h y (by simp)
    rw [List.map_cons, insertBy, insertBy]
    have : rankLe F (F.minus x.2, i, x.2, x.1) y = !F.lt (F.minus y.2.2.1) (F.minus x.2) := by
      rw [rankLe, hy.1]
      split
      · next e =>
        simp only at e
        rw [e, hF.irrefl]
        simpa using Nat.le_of_lt hy.2
      · next e =>
        simp only at e ⊢
        rcases hF.total _ _ e with h1 | h1
        · rw [h1, lt_asymm hF h1]; rfl
        · rw [h1, lt_asymm hF h1]; rfl
    rw [this]
    simp only
    split
    · rfl
    · rw [List.map_cons, ih (fun z hz => h z (List.mem_cons_of_mem _ hz))]

theorem collect_ok (hF : Ordered F) (k : Known Q) (i : Nat) (l : List Str) (h : ∀ t ∈ l, ∃ main sub, IsType t main sub) :
    ∃ out, collect F k i l = .ok out ∧ (∀ y ∈ out, y.1 = F.minus y.2.2.1 ∧ i ≤ y.2.1) ∧
      (sortBy (rankLe F) out).map (fun y => (y.2.2.2, y.2.2.1)) =
        sortBy (fun a b => !F.lt (F.minus b.2) (F.minus a.2))
          ((l.filter fun t => typeQuality k t ≠ F.zero).map fun t => (t, typeQuality k t)) := by
  induction l generalizing i with
  | nil => exact ⟨[], rfl, by simp, rfl⟩
  | cons t r ih =>
    obtain ⟨main, sub, hT⟩ := h t (by simp)
    have hr := fun t' ht' => h t' (List.mem_cons_of_mem _ ht')
    rw [collect_cons k i t r hT]
    split
    · next hz =>
      obtain ⟨out, h1, h2, h3⟩ := ih i hr
      exact ⟨out, h1, h2, by rw [h3]; simp [hz]⟩
    · next hz =>
      obtain ⟨out, h1, h2, h3⟩ := ih (i + 1) hr
      refine ⟨(F.minus (typeQuality k t), i, typeQuality k t, t) :: out, by rw [h1]; rfl, ?_, ?_⟩
      · intro y hy
        rcases List.mem_cons.1 hy with rfl | hy
        · exact ⟨rfl, Nat.le_refl _⟩
        · have := h2 y hy; exact ⟨this.1, by omega⟩
      · rw [sortBy, map_insert i (t, typeQuality k t) _ hF, h3]
        · simp [hz, sortBy]
        · intro y hy
          rw [mem_sortBy] at hy
          have := h2 y hy; exact ⟨this.1, by omega⟩

theorem matchTypes_ok (hF : Ordered F) (A : List (Str × Str × Q)) (l : List Str)
    (h : ∀ t ∈ l, ∃ main sub, IsType t main sub) :
    matchTypes F A l = .ok (sortBy (fun a b => !F.lt (F.minus b.2) (F.minus a.2))
      ((l.filter fun t => typeQuality (known F A) t ≠ F.zero).map fun t => (t, typeQuality (known F A) t))) := by
  obtain ⟨out, h1, _, h3⟩ := collect_ok hF (known F A) 0 l h
  rw [matchTypes, h1, ← h3]; rfl

theorem matchTypes_error (A : List (Str × Str × Q)) (l : List Str) (e : PyErr) :
    matchTypes F A l = .error e ↔ e = .valueError ∧ ∃ t ∈ l, t.count '/' ≠ 1 := by
  rw [← collect_error (F := F) (known F A) 0, matchTypes]
  cases collect F (known F A) 0 l <;> simp

/-- lists that are sorted by a key and have the same elements for each value of it, in the same order, are equal -/
theorem sorted_unique {α K : Type} [DecidableEq K] (key : α → K) (le : K → K → Prop) (hanti : ∀ a b, le a b → le b a → a = b)
    (hrefl : ∀ a, le a a) (l l' : List α) (h : l.Pairwise fun a b => le (key a) (key b))
    (h' : l'.Pairwise fun a b => le (key a) (key b)) (hf : ∀ k, l.filter (fun x => key x = k) = l'.filter (fun x => key x = k)) :
    l = l' := by
  have hmem : ∀ x, x ∈ l ↔ x ∈ l' := by
    intro x
    have := hf (key x)
    have h1 : x ∈ l.filter (fun y => key y = key x) ↔ x ∈ l'.filter (fun y => key y = key x) := by rw [this]
    simpa [List.mem_filter] using h1
  induction l generalizing l' with
  | nil =>
    cases l' with
    | nil => rfl
    | cons y r => exact absurd ((hmem y).2 (by simp)) (by simp)
  | cons x r ih =>
    cases l' with
    | nil => exact absurd ((hmem x).1 (by simp)) (by simp)
    | cons y s =>
      have hk : key x = key y := by
        apply hanti
        · rcases List.mem_cons.1 ((hmem y).2 (by simp)) with e | e
          · rw [e]; exact hrefl _
          · exact (List.pairwise_cons.1 h).1 _ e
        · rcases List.mem_cons.1 ((hmem x).1 (by simp)) with e | e
          · rw [e]; exact hrefl _
          · exact (List.pairwise_cons.1 h').1 _ e
      have hxy : x = y := by
        have := hf (key x)
        rw [List.filter_cons_of_pos (by simp), List.filter_cons_of_pos (by simp [hk])] at this
        exact (List.cons.inj this).1
      subst hxy
      have hf' : ∀ k, r.filter (fun x => key x = k) = s.filter (fun x => key x = k) := by
        intro k
        have := hf k
        rw [List.filter_cons, List.filter_cons] at this
        split at this
        · exact (List.cons.inj this).2
        · exact this
      rw [ih s (List.pairwise_cons.1 h).2 (List.pairwise_cons.1 h').2 hf']
      intro z
      have h1 : z ∈ r.filter (fun y => key y = key z) ↔ z ∈ s.filter (fun y => key y = key z) := by rw [hf' (key z)]
      simpa [List.mem_filter] using h1

theorem distLe_total (hF : Ordered F) (a b : Str × Q) :
    (!F.lt (F.minus b.2) (F.minus a.2)) = true ∨ (!F.lt (F.minus a.2) (F.minus b.2)) = true := by
  cases h : F.lt (F.minus b.2) (F.minus a.2) with
  | false => exact .inl rfl
  | true => right; rw [lt_asymm hF h]; rfl

theorem distLe_trans (hF : Ordered F) (a b c : Str × Q) (h : (!F.lt (F.minus b.2) (F.minus a.2)) = true)
    (h' : (!F.lt (F.minus c.2) (F.minus b.2)) = true) : (!F.lt (F.minus c.2) (F.minus a.2)) = true := by
  simp only [Bool.not_eq_true'] at *
  exact le_trans' hF h h'

/-! ## headers -/

theorem cut_q (p : Str) (v : Str) : cut '=' p = some (t!"q", v) ↔ p = t!"q=" ++ v := by
  rw [cut_eq_some_iff]
  constructor
  · rintro ⟨rfl, _⟩; rfl
  · rintro rfl; exact ⟨rfl, by decide⟩

/-- a parameter that is a factor -/
def isFactor (F : Floats Q) (p : Str) : Option Q :=
  match cut '=' p with
  | some (k, v) => if k = t!"q" then F.parse v else none
  | none => none

theorem isFactor_iff (p : Str) (q : Q) : isFactor F p = some q ↔ ∃ v, p = t!"q=" ++ v ∧ F.parse v = some q := by
  unfold isFactor
  constructor
  · intro h
    cases hc : cut '=' p with
    | none => rw [hc] at h; simp at h
    | some kv =>
      obtain ⟨k, v⟩ := kv
      rw [hc] at h
      simp only at h
      split at h
      · next e => subst e; exact ⟨v, (cut_q p v).1 hc, h⟩
      · simp at h
  · rintro ⟨v, hp, hv⟩
    rw [(cut_q p v).2 hp]
    simp [hv]

theorem factor_cons (p : Str) (r : List Str) : factor F (p :: r) = (isFactor F p).getD (factor F r) := by
  rw [factor.eq_def, isFactor]
  simp only
  cases cut '=' p with
  | none => rfl
  | some kv =>
    obtain ⟨k, v⟩ := kv
    simp only
    split
    · cases F.parse v <;> rfl
    · rfl

theorem factor_iff (ps : List Str) (q : Q) : factor F ps = q ↔
    ((∃ pre p post, ps = pre ++ p :: post ∧ isFactor F p = some q ∧ ∀ p' ∈ pre, isFactor F p' = none) ∨
     q = F.one ∧ ∀ p' ∈ ps, isFactor F p' = none) := by
  induction ps with
  | nil => simp [factor, eq_comm]
  | cons p r ih =>
    rw [factor_cons]
    cases hp : isFactor F p with
    | some q' =>
      simp only [Option.getD_some]
      constructor
      · rintro rfl; exact .inl ⟨[], p, r, rfl, hp, by simp⟩
      · rintro (⟨pre, p', post, h1, h2, h3⟩ | ⟨_, h⟩)
        · cases pre with
          | nil => obtain ⟨rfl, rfl⟩ := List.cons.inj h1; rw [hp] at h2; exact Option.some.inj h2
          | cons a b =>
            obtain ⟨rfl, -⟩ := List.cons.inj h1
            rw [h3 _ (by simp)] at hp; exact absurd hp (by simp)
        · rw [h p (by simp)] at hp; exact absurd hp (by simp)
    | none =>
      simp only [Option.getD_none]
      rw [ih]
      constructor
      · rintro (⟨pre, p', post, rfl, h2, h3⟩ | ⟨h1, h2⟩)
        · refine .inl ⟨p :: pre, p', post, rfl, h2, ?_⟩
          intro x hx
          rcases List.mem_cons.1 hx with rfl | hx
          · exact hp
          · exact h3 x hx
        · refine .inr ⟨h1, ?_⟩
          intro x hx
          rcases List.mem_cons.1 hx with rfl | hx
          · exact hp
          · exact h2 x hx
      · rintro (⟨pre, p', post, h1, h2, h3⟩ | ⟨h1, h2⟩)
        · cases pre with
          | nil => obtain ⟨rfl, rfl⟩ := List.cons.inj h1; rw [hp] at h2; exact absurd h2 (by simp)
          | cons a b =>
            obtain ⟨rfl, rfl⟩ := List.cons.inj h1
            exact .inl ⟨b, p', post, rfl, h2, fun x hx => h3 x (List.mem_cons_of_mem _ hx)⟩
        · exact .inr ⟨h1, fun x hx => h2 x (List.mem_cons_of_mem _ hx)⟩

theorem isFactor_none (p : Str) : isFactor F p = none ↔ ∀ v' q', p = t!"q=" ++ v' → F.parse v' ≠ some q' := by
  constructor
  · intro h v q hp hv
    rw [(isFactor_iff p q).2 ⟨v, hp, hv⟩] at h; simp at h
  · intro h
    cases e : isFactor F p with
    | none => rfl
    | some q => obtain ⟨v, h1, h2⟩ := (isFactor_iff p q).1 e; exact absurd h2 (h v q h1)

theorem parseChunk_iff (chunk main sub : Str) (q : Q) :
    parseChunk F chunk = some (main, sub, q) ↔ IsEntry F chunk main sub q := by
  unfold parseChunk IsEntry
  cases hs : splitOn ';' chunk with
  | nil => exact absurd hs (splitOn_ne_nil _ _)
  | cons mt ps =>
    simp only [List.map_cons]
    have key : (∃ pre p post v, ps = pre ++ p :: post ∧ strip p = t!"q=" ++ v ∧ F.parse v = some q ∧
        ∀ p' ∈ pre, ∀ v' q', strip p' = t!"q=" ++ v' → F.parse v' ≠ some q') ∨
       (q = F.one ∧ ∀ p' ∈ ps, ∀ v' q', strip p' = t!"q=" ++ v' → F.parse v' ≠ some q') ↔
       factor F (ps.map strip) = q := by
      rw [factor_iff]
      apply or_congr
      · constructor
        · rintro ⟨pre, p, post, v, rfl, h2, h3, h4⟩
          refine ⟨pre.map strip, strip p, post.map strip, by simp, (isFactor_iff _ _).2 ⟨v, h2, h3⟩, ?_⟩
          intro x hx
          obtain ⟨y, hy, rfl⟩ := List.mem_map.1 hx
          exact (isFactor_none _).2 (h4 y hy)
        · rintro ⟨pre, p, post, h1, h2, h3⟩
          obtain ⟨pre', l2, rfl, rfl, h5⟩ := List.map_eq_append_iff.1 h1
          obtain ⟨p', post', rfl, rfl, rfl⟩ := List.map_eq_cons_iff.1 h5
          obtain ⟨v, h6, h7⟩ := (isFactor_iff _ _).1 h2
          exact ⟨pre', p', post', v, rfl, h6, h7, fun x hx =>
            (isFactor_none _).1 (h3 _ (List.mem_map.2 ⟨x, hx, rfl⟩))⟩
      · apply and_congr Iff.rfl
        constructor
        · intro h x hx
          obtain ⟨y, hy, rfl⟩ := List.mem_map.1 hx
          exact (isFactor_none _).2 (h y hy)
        · intro h y hy
          exact (isFactor_none _).1 (h _ (List.mem_map.2 ⟨y, hy, rfl⟩))
    constructor
    · intro h
      cases hc : cut '/' (strip mt) with
      | none => rw [hc] at h; simp at h
      | some p =>
        obtain ⟨a, b⟩ := p
        rw [hc] at h
        simp only [Option.some.injEq, Prod.mk.injEq] at h
        obtain ⟨rfl, rfl, h3⟩ := h
        obtain ⟨h1, h2⟩ := (cut_eq_some_iff _ _ _ _).1 hc
        exact ⟨mt, ps, rfl, h2, h1, key.2 h3⟩
    · rintro ⟨mt', ps', h0, h1, h2, h3⟩
      obtain ⟨rfl, rfl⟩ := List.cons.inj h0
      rw [h2, cut_append _ _ _ h1]
      simp only [Option.some.injEq, Prod.mk.injEq, true_and]
      exact key.1 h3

theorem entries_iff (header : Str) (A : List (Str × Str × Q)) :
    Entries F header A ↔ A.Perm (((splitOn ',' header).map strip).filterMap (parseChunk F)) := by
  constructor
  · rintro ⟨f, hf, h⟩
    have : f = parseChunk F := by
      funext c
      apply Option.ext
      rintro ⟨m, s, q⟩
      rw [hf, parseChunk_iff]
    rw [← this]; exact h
  · exact fun h => ⟨parseChunk F, parseChunk_iff, h⟩

theorem entryGe_total (hF : Ordered F) (a b : Str × Str × Q) : entryGe F a b = true ∨ entryGe F b a = true := by
  unfold entryGe
  by_cases h : a.2.2 = b.2.2
  · rw [if_pos h, if_pos h.symm]
    by_cases h1 : a.1 = b.1
    · rw [if_pos h1, if_pos h1.symm]; exact strLe_total _ _
    · rw [if_neg h1, if_neg (fun x => h1 x.symm)]; exact strLe_total _ _
  · rw [if_neg h, if_neg (fun x => h x.symm)]; exact hF.total _ _ (fun x => h x.symm)

theorem entryGe_iff (hF : Ordered F) (a b : Str × Str × Q) : entryGe F a b = true ↔
    F.lt a.2.2 b.2.2 = false ∧ (a.2.2 = b.2.2 → strLe b.1 a.1 = true ∧ (a.1 = b.1 → strLe b.2.1 a.2.1 = true)) := by
  unfold entryGe
  by_cases h : a.2.2 = b.2.2
  · rw [if_pos h]
    by_cases h1 : a.1 = b.1
    · rw [if_pos h1, h, h1]; simp [hF.irrefl, strLe_refl]
    · rw [if_neg h1, h]; simp [hF.irrefl, h1]
  · rw [if_neg h]
    constructor
    · exact fun x => ⟨lt_asymm hF x, fun e => absurd e h⟩
    · rintro ⟨x, -⟩
      rcases hF.total _ _ h with y | y
      · rw [y] at x; exact absurd x (by decide)
      · exact y

theorem entryGe_trans (hF : Ordered F) (a b c : Str × Str × Q) (h : entryGe F a b = true) (h' : entryGe F b c = true) :
    entryGe F a c = true := by
  rw [entryGe_iff hF] at *
  refine ⟨le_trans' hF h'.1 h.1, fun e => ?_⟩
  have hab : a.2.2 = b.2.2 := eq_of_not_lt hF h.1 (by rw [e]; exact h'.1)
  have h1 := h.2 hab
  have h2 := h'.2 (by rw [← hab]; exact e)
  refine ⟨strLe_trans _ _ _ h2.1 h1.1, fun e1 => ?_⟩
  have hab1 : a.1 = b.1 := strLe_antisymm _ _ (by rw [e1]; exact h2.1) h1.1
  exact strLe_trans _ _ _ (h2.2 (by rw [← hab1]; exact e1)) (h1.2 hab1)

/-! ## making a header -/

theorem element_error (e : Str × Option Q) (x : PyErr) : element F e = .error x ↔
    x = .valueError ∧ ∃ q, e.2 = some q ∧ (F.lt F.one q = true ∨ F.lt F.zero q = false) := by
  unfold element
  cases h : e.2 with
  | none => simp
  | some q =>
    simp only [Option.some.injEq, exists_eq_left']
    split
    · next hq =>
      simp at hq
      constructor
      · intro x; injection x with x; exact ⟨x.symm, hq⟩
      · rintro ⟨rfl, -⟩; rfl
    · next hq => simp at hq; simp [hq]

/-- the two texts of an element -/
def texts (F : Floats Q) (e : Str × Option Q) : Str × Str :=
  match e.2 with
  | none => (t!"1.0", e.1)
  | some q => (F.fmt q, e.1)

theorem element_ok (e : Str × Option Q) (h : ∀ q, e.2 = some q → F.lt F.one q = false ∧ F.lt F.zero q = true) :
    element F e = .ok (texts F e) := by
  obtain ⟨t, q⟩ := e
  cases q with
  | none => rfl
  | some q =>
    obtain ⟨h1, h2⟩ := h q rfl
    simp [element, texts, h1, h2]

theorem elements_ok (es : List (Str × Option Q))
    (h : ∀ e ∈ es, ∀ q, e.2 = some q → F.lt F.one q = false ∧ F.lt F.zero q = true) :
    es.mapM (element F) = .ok (es.map (texts F)) := by
  induction es with
  | nil => rfl
  | cons e r ih =>
    rw [List.mapM_cons, element_ok e (h e (by simp)), ih (fun x hx => h x (List.mem_cons_of_mem _ hx))]
    rfl

theorem elements_error (es : List (Str × Option Q)) (x : PyErr) : es.mapM (element F) = .error x ↔
    x = .valueError ∧ ∃ e ∈ es, ∃ q, e.2 = some q ∧ (F.lt F.one q = true ∨ F.lt F.zero q = false) := by
  induction es with
  | nil => simp [pure, Except.pure]
  | cons e r ih =>
    rw [List.mapM_cons]
    by_cases he : ∃ q, e.2 = some q ∧ (F.lt F.one q = true ∨ F.lt F.zero q = false)
    · rw [(element_error e .valueError).2 ⟨rfl, he⟩, error_bind]
      constructor
      · intro h; injection h with h; exact ⟨h.symm, e, by simp, he⟩
      · rintro ⟨rfl, -⟩; rfl
    · rw [element_ok e (by
        intro q hq
        refine ⟨?_, ?_⟩
        · cases h : F.lt F.one q with
          | false => rfl
          | true => exact absurd ⟨q, hq, .inl h⟩ he
        · cases h : F.lt F.zero q with
          | true => rfl
          | false => exact absurd ⟨q, hq, .inr h⟩ he), ok_bind]
      have : (∃ e' ∈ e :: r, ∃ q, e'.2 = some q ∧ (F.lt F.one q = true ∨ F.lt F.zero q = false)) ↔
          (∃ e' ∈ r, ∃ q, e'.2 = some q ∧ (F.lt F.one q = true ∨ F.lt F.zero q = false)) := by
        constructor
        · rintro ⟨e', he', h⟩
          rcases List.mem_cons.1 he' with rfl | he'
          · exact absurd h he
          · exact ⟨e', he', h⟩
        · rintro ⟨e', he', h⟩; exact ⟨e', List.mem_cons_of_mem _ he', h⟩
      rw [this, ← ih]
      cases r.mapM (element F) <;> simp

theorem pairLe_total (a b : Str × Str) : pairLe a b = true ∨ pairLe b a = true := by
  unfold pairLe
  by_cases h : a.1 = b.1
  · rw [if_pos h, if_pos h.symm]; exact strLe_total _ _
  · rw [if_neg h, if_neg (fun x => h x.symm)]; exact strLe_total _ _

theorem pairLe_iff (a b : Str × Str) : pairLe a b = true ↔
    strLe a.1 b.1 = true ∧ (a.1 = b.1 → strLe a.2 b.2 = true) := by
  unfold pairLe
  split
  · next h => simp [h, strLe_refl]
  · next h => simp [h]

theorem pairLe_trans (a b c : Str × Str) (h : pairLe a b = true) (h' : pairLe b c = true) : pairLe a c = true := by
  rw [pairLe_iff] at *
  refine ⟨strLe_trans _ _ _ h.1 h'.1, fun e => ?_⟩
  have : a.1 = b.1 := strLe_antisymm _ _ h.1 (by rw [e]; exact h'.1)
  exact strLe_trans _ _ _ (h.2 this) (h'.2 (by rw [← this]; exact e))

theorem split_joined (l : List Str) (hl : l ≠ []) (h : ∀ x ∈ l, ',' ∉ x) :
    (splitOn ',' (join t!", " l)).map strip = l.map strip := by
  have space : ∀ x : Str, strip (' ' :: x) = strip x := by
    intro x; unfold strip lstrip; rw [List.dropWhile_cons]; rfl
  induction l with
  | nil => contradiction
  | cons x r ih =>
    cases r with
    | nil => simp only [join, List.map_cons, List.map_nil]; rw [splitOn_not_mem _ _ (h x (by simp))]; rfl
    | cons y r =>
      have hr := ih (by simp) (fun z hz => h z (List.mem_cons_of_mem _ hz))
      rw [join_cons_cons, show x ++ t!", " ++ join t!", " (y :: r) = x ++ ',' :: (' ' :: join t!", " (y :: r)) by simp,
        splitOn_append _ _ _ (h x (by simp)), List.map_cons, List.map_cons (l := y :: r), ← hr]
      congr 1
      rw [splitOn]
      simp only [show ((' ' : Char) = ',') = False by simp, if_false]
      cases hs : splitOn ',' (join t!", " (y :: r)) with
      | nil => exact absurd hs (splitOn_ne_nil _ _)
      | cons a b => simp [space]

theorem strip_chunk (t fs : Str) (ht : strip t = t) (h0 : t ≠ []) (hf : ∀ c ∈ fs, isSpace c = false) :
    strip (t ++ t!"; q=" ++ fs) = t ++ t!"; q=" ++ fs := by
  rcases strip_cases t with h | ⟨c, r, h, hc⟩
  · rw [ht] at h; exact absurd h h0
  · rw [ht] at h
    subst h
    rw [strip, lstrip_of_head _ (by simp [hc])]
    rcases List.eq_nil_or_concat fs with rfl | ⟨x, y, rfl⟩
    · rw [show c :: r ++ t!"; q=" ++ [] = (c :: r ++ t!"; q") ++ ['='] by simp]
      exact rstrip_append_nonspace _ _ (by decide)
    · rw [List.concat_eq_append, ← List.append_assoc]
      exact rstrip_append_nonspace _ _ (hf y (by simp))

theorem parseChunk_type {t main sub : Str} (h : ListedType t main sub) : parseChunk F (strip t) = some (main, sub, F.one) := by
  obtain ⟨rfl, h1, h2, h3, h4⟩ := h
  rw [h2, parseChunk]
  rw [splitOn_not_mem _ _ h4]
  simp only [List.map_cons, List.map_nil, h2, cut_append _ _ _ h1, factor]

theorem parseChunk_factor {t main sub fs : Str} {q : Q} (h : ListedType t main sub)
    (hf : ∀ c ∈ fs, isSpace c = false ∧ c ≠ ',' ∧ c ≠ ';') (hp : F.parse fs = some q) :
    parseChunk F (strip (t ++ t!"; q=" ++ fs)) = some (main, sub, q) := by
  obtain ⟨rfl, h1, h2, h3, h4⟩ := h
  have hns : ∀ c ∈ fs, isSpace c = false := fun c hc => (hf c hc).1
  rw [strip_chunk _ fs h2 (by simp) hns, parseChunk,
    show main ++ '/' :: sub ++ t!"; q=" ++ fs = (main ++ '/' :: sub) ++ ';' :: (t!" q=" ++ fs) by simp,
    splitOn_append _ _ _ h4, splitOn_not_mem ';' (t!" q=" ++ fs)]
  · have hs : strip (t!" q=" ++ fs) = t!"q=" ++ fs := by
      rw [show strip (t!" q=" ++ fs) = strip (t!"q=" ++ fs) by
        unfold strip lstrip; rw [List.cons_append, List.dropWhile_cons]; rfl]
      apply strip_digits
      intro c hc
      rcases List.mem_append.1 hc with hc | hc
      · have hq : ∀ c ∈ t!"q=", isSpace c = false := by decide
        exact hq c hc
      · exact hns c hc
    simp only [List.map_cons, List.map_nil, h2, cut_append _ _ _ h1, hs, factor_cons]
    rw [(isFactor_iff _ q).2 ⟨fs, rfl, hp⟩]; rfl
  · intro hm
    rcases List.mem_append.1 hm with hm | hm
    · revert hm; decide
    · exact (hf _ hm).2.2 rfl

end Accept
