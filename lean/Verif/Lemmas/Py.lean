import Verif.Base.Py
/-! Helper lemmas about the Python built-ins of `Verif.Base.Py`. -/

namespace Py

/-! ### exceptions -/

@[simp] theorem ok_bind {ε α β} (a : α) (f : α → Except ε β) : (Except.ok a >>= f) = f a := rfl
@[simp] theorem error_bind {ε α β} (e : ε) (f : α → Except ε β) :
    (Except.error e >>= f) = Except.error e := rfl
@[simp] theorem pure_eq_ok {ε α} (a : α) : (pure a : Except ε α) = Except.ok a := rfl
@[simp] theorem throw_eq_error {ε α} (e : ε) : (throw e : Except ε α) = Except.error e := rfl
@[simp] theorem map_ok {ε α β} (f : α → β) (a : α) :
    (f <$> (Except.ok a : Except ε α)) = Except.ok (f a) := rfl
@[simp] theorem map_error {ε α β} (f : α → β) (e : ε) :
    (f <$> (Except.error e : Except ε α)) = Except.error e := rfl

theorem bind_eq_ok {ε α β} {x : Except ε α} {f : α → Except ε β} {b : β} :
    (x >>= f) = Except.ok b ↔ ∃ a, x = Except.ok a ∧ f a = Except.ok b := by
  cases x <;> simp

theorem bind_eq_error {ε α β} {x : Except ε α} {f : α → Except ε β} {e : ε} :
    (x >>= f) = Except.error e ↔
      x = Except.error e ∨ ∃ a, x = Except.ok a ∧ f a = Except.error e := by
  cases x <;> simp

/-! ### strip -/

theorem rstrip_eq_nil_iff (s : Str) : rstrip s = [] ↔ ∀ c ∈ s, isSpace c = true := by
  induction s with
  | nil => simp [rstrip]
  | cons c s ih =>
    rw [rstrip]
    split
    · next h => rw [ih] at h; split <;> simp_all
    · next t ht => 
      have : rstrip s ≠ [] := by intro h; simp_all
      rw [ne_eq, ih] at this
      simp only [reduceCtorEq, false_iff, List.mem_cons, forall_eq_or_imp, not_and]
      intro _; exact this

theorem rstrip_append_nonspace (s : Str) (c : Char) (h : isSpace c = false) :
    rstrip (s ++ [c]) = s ++ [c] := by
  induction s with
  | nil => simp [rstrip, h]
  | cons d s ih => rw [List.cons_append, rstrip, ih]; cases hs : s ++ [c] <;> simp_all

theorem rstrip_append_space (s : Str) (c : Char) (h : isSpace c = true) :
    rstrip (s ++ [c]) = rstrip s := by
  induction s with
  | nil => simp [rstrip, h]
  | cons d s ih => rw [List.cons_append, rstrip, ih, rstrip]

theorem rstrip_idem (s : Str) : rstrip (rstrip s) = rstrip s := by
  induction s with
  | nil => rfl
  | cons c s ih =>
    rw [rstrip]
    cases h : rstrip s with
    | nil => by_cases hc : isSpace c = true <;> simp [hc, rstrip]
    | cons d t =>
      rw [h] at ih
      simp only [rstrip] at ih ⊢
      rw [ih]

theorem rstrip_head (c : Char) (s : Str) (h : isSpace c = false) :
    rstrip (c :: s) = c :: rstrip s := by
  rw [rstrip]; split <;> simp_all

theorem lstrip_of_head (s : Str) (h : ∀ c, s.head? = some c → isSpace c = false) :
    lstrip s = s := by
  cases s with
  | nil => rfl
  | cons c s => simp [lstrip, h c rfl]

theorem lstrip_cases (s : Str) : lstrip s = [] ∨ ∃ c t, lstrip s = c :: t ∧ isSpace c = false := by
  induction s with
  | nil => simp [lstrip]
  | cons c s ih =>
    by_cases hc : isSpace c = true
    · simpa [lstrip, hc] using ih
    · right; exact ⟨c, s, by simp [lstrip, hc], by simpa using hc⟩

theorem strip_cases (s : Str) : strip s = [] ∨ ∃ c t, strip s = c :: t ∧ isSpace c = false := by
  rcases lstrip_cases s with h | ⟨c, t, h, hc⟩
  · left; simp [strip, h, rstrip]
  · right; exact ⟨c, rstrip t, by rw [strip, h, rstrip_head c t hc], hc⟩

theorem strip_idem (s : Str) : strip (strip s) = strip s := by
  have h1 : lstrip (strip s) = strip s := by
    apply lstrip_of_head
    rcases strip_cases s with h | ⟨c, t, h, hc⟩
    · simp [h]
    · rw [h]; simpa using hc
  rw [strip, h1]
  simp only [strip, rstrip_idem]

theorem strip_nil : strip [] = [] := rfl

theorem lstrip_subset (s : Str) : ∀ c ∈ lstrip s, c ∈ s := by
  intro c hc; exact (List.dropWhile_sublist isSpace).subset hc

theorem rstrip_subset (s : Str) : ∀ c ∈ rstrip s, c ∈ s := by
  induction s with
  | nil => simp [rstrip]
  | cons d s ih =>
    intro c hc
    rw [rstrip] at hc
    split at hc
    · split at hc <;> simp_all
    · rcases List.mem_cons.1 hc with rfl | hc
      · simp
      · exact List.mem_cons_of_mem _ (ih c hc)

theorem strip_subset (s : Str) : ∀ c ∈ strip s, c ∈ s :=
  fun c hc => lstrip_subset s c (rstrip_subset _ c hc)

/-- a text with a non-space character does not strip to nothing -/
theorem strip_ne_nil_of_mem (s : Str) (c : Char) (hc : c ∈ s) (h : isSpace c = false) :
    strip s ≠ [] := by
  intro hn
  rw [strip, rstrip_eq_nil_iff] at hn
  rcases lstrip_cases s with hl | ⟨d, t, hl, hd⟩
  · -- all spaces
    have : ∀ s : Str, lstrip s = [] → ∀ c ∈ s, isSpace c = true := by
      intro s
      induction s with
      | nil => simp
      | cons e s ih =>
        intro h
        by_cases he : isSpace e = true
        · have : lstrip s = [] := by simpa [lstrip, he] using h
          intro c hc
          rcases List.mem_cons.1 hc with rfl | hc
          · exact he
          · exact ih this c hc
        · simp [lstrip, he] at h
    have := this s hl c hc
    simp_all
  · rw [hl] at hn; have := hn d (by simp); simp_all

/-! ### splitOn, join, cut -/

theorem splitOn_ne_nil (c : Char) (s : Str) : splitOn c s ≠ [] := by
  cases s with
  | nil => simp [splitOn]
  | cons x xs => rw [splitOn]; split; simp; split <;> simp

theorem splitOn_not_mem (c : Char) (s : Str) (h : c ∉ s) : splitOn c s = [s] := by
  induction s with
  | nil => rfl
  | cons x xs ih =>
    simp only [List.mem_cons, not_or] at h
    rw [splitOn, if_neg (Ne.symm h.1), ih h.2]

theorem splitOn_append (c : Char) (a b : Str) (h : c ∉ a) :
    splitOn c (a ++ c :: b) = a :: splitOn c b := by
  induction a with
  | nil => simp [splitOn]
  | cons x xs ih =>
    simp only [List.mem_cons, not_or] at h
    rw [List.cons_append, splitOn, if_neg (Ne.symm h.1), ih h.2]

theorem splitOn_pieces (c : Char) (s : Str) : ∀ p ∈ splitOn c s, c ∉ p := by
  induction s with
  | nil => simp [splitOn]
  | cons x xs ih =>
    rw [splitOn]
    split
    · intro p hp; rcases List.mem_cons.1 hp with rfl | hp
      · simp
      · exact ih p hp
    · next hx =>
      split
      · intro p hp; simp at hp; subst hp; simpa using Ne.symm hx
      · next y ys hy =>
        rw [hy] at ih
        intro p hp
        rcases List.mem_cons.1 hp with rfl | hp
        · have := ih y (by simp); simp only [List.mem_cons, not_or]; exact ⟨Ne.symm hx, this⟩
        · exact ih p (by simp [hp])

theorem join_cons_cons (sep x y : Str) (r : List Str) :
    join sep (x :: y :: r) = x ++ sep ++ join sep (y :: r) := rfl

theorem join_cons_of_ne (sep x : Str) (r : List Str) (h : r ≠ []) :
    join sep (x :: r) = x ++ sep ++ join sep r := by
  cases r with
  | nil => contradiction
  | cons y r => rfl

theorem join_splitOn (c : Char) (s : Str) : join [c] (splitOn c s) = s := by
  induction s with
  | nil => rfl
  | cons x xs ih =>
    rw [splitOn]
    split
    · next h =>
      rw [join_cons_of_ne _ _ _ (splitOn_ne_nil c xs), ih, h]; rfl
    · split
      · next h => exact absurd h (splitOn_ne_nil c xs)
      · next y ys h =>
        rw [h] at ih
        cases ys with
        | nil => simp [join] at ih ⊢; exact ih
        | cons z zs => simp [join_cons_cons] at ih ⊢; exact ih

theorem splitOn_join (c : Char) (l : List Str) (hl : l ≠ []) (h : ∀ p ∈ l, c ∉ p) :
    splitOn c (join [c] l) = l := by
  induction l with
  | nil => contradiction
  | cons x r ih =>
    cases r with
    | nil => simp only [join]; exact splitOn_not_mem c x (h x (by simp))
    | cons y r =>
      rw [join_cons_cons, List.append_assoc, List.singleton_append,
        splitOn_append c _ _ (h x (by simp)), ih (by simp) (fun p hp => h p (by simp [hp]))]

theorem cut_append (c : Char) (a b : Str) (h : c ∉ a) : cut c (a ++ c :: b) = some (a, b) := by
  induction a with
  | nil => simp [cut]
  | cons x xs ih =>
    simp only [List.mem_cons, not_or] at h
    rw [List.cons_append, cut, if_neg (Ne.symm h.1), ih h.2]; rfl

theorem cut_eq_none_iff (c : Char) (s : Str) : cut c s = none ↔ c ∉ s := by
  induction s with
  | nil => simp [cut]
  | cons x xs ih =>
    rw [cut]
    split
    · next h => simp [h]
    · next h => simp [ih, Ne.symm h]

theorem cut_eq_some_iff (c : Char) (s a b : Str) :
    cut c s = some (a, b) ↔ s = a ++ c :: b ∧ c ∉ a := by
  constructor
  · induction s generalizing a with
    | nil => simp [cut]
    | cons x xs ih =>
      rw [cut]
      split
      · next h => simp only [Option.some.injEq, Prod.mk.injEq]; rintro ⟨rfl, rfl⟩; simp [h]
      · next h =>
        cases hc : cut c xs with
        | none => simp
        | some p =>
          obtain ⟨u, v⟩ := p
          simp only [Option.map_some, Option.some.injEq, Prod.mk.injEq]
          rintro ⟨rfl, rfl⟩
          obtain ⟨h1, h2⟩ := ih u hc
          exact ⟨by rw [h1]; rfl, by simp [h2, Ne.symm h]⟩
  · rintro ⟨rfl, h⟩; exact cut_append c a b h

theorem rcut_eq_none_iff (c : Char) (s : Str) : rcut c s = none ↔ c ∉ s := by
  induction s with
  | nil => simp [rcut]
  | cons x xs ih =>
    rw [rcut]
    split
    · next p h => 
      have : ¬ c ∉ xs := by intro h'; rw [ih.2 h'] at h; cases h
      simp only [reduceCtorEq, List.mem_cons, not_or, false_iff, not_and]
      intro _; exact this
    · next h => 
      have := ih.1 h
      split
      · next h => simp [h]
      · next h => simp [this, Ne.symm h]

theorem rcut_append (c : Char) (a b : Str) (h : c ∉ b) : rcut c (a ++ c :: b) = some (a, b) := by
  induction a with
  | nil => rw [List.nil_append, rcut, (rcut_eq_none_iff c b).2 h]; simp
  | cons x xs ih => rw [List.cons_append, rcut, ih]

theorem rcut_eq_some (c : Char) (s a b : Str) (h : rcut c s = some (a, b)) :
    s = a ++ c :: b ∧ c ∉ b := by
  induction s generalizing a with
  | nil => simp [rcut] at h
  | cons x xs ih =>
    rw [rcut] at h
    split at h
    · next p hp =>
      obtain ⟨u, v⟩ := p
      simp only [Option.some.injEq, Prod.mk.injEq] at h
      obtain ⟨rfl, rfl⟩ := h
      obtain ⟨h1, h2⟩ := ih u hp
      exact ⟨by rw [h1]; rfl, h2⟩
    · next hn =>
      split at h
      · next hx =>
        simp only [Option.some.injEq, Prod.mk.injEq] at h
        obtain ⟨rfl, rfl⟩ := h
        exact ⟨by simp [hx], (rcut_eq_none_iff c xs).1 hn⟩
      · cases h

theorem startsWith_iff (s p : Str) : startsWith s p = true ↔ ∃ r, s = p ++ r := by
  rw [startsWith, List.isPrefixOf_iff_prefix, List.IsPrefix]
  constructor <;> rintro ⟨r, h⟩ <;> exact ⟨r, h.symm⟩

theorem endsWith_iff (s p : Str) : endsWith s p = true ↔ ∃ r, s = r ++ p := by
  rw [endsWith, List.isSuffixOf_iff_suffix, List.IsSuffix]
  constructor <;> rintro ⟨r, h⟩ <;> exact ⟨r, h.symm⟩

/-! ### comparison and sorting -/

theorem strLe_refl (s : Str) : strLe s s = true := by
  induction s <;> simp_all [strLe]

theorem strLe_total (s t : Str) : strLe s t = true ∨ strLe t s = true := by
  induction s generalizing t with
  | nil => simp [strLe]
  | cons a s ih =>
    cases t with
    | nil => simp [strLe]
    | cons b t =>
      simp only [strLe]
      by_cases h : a = b
      · subst h; simpa using ih t
      · have hn : a.toNat ≠ b.toNat := fun e => h (Char.toNat_inj.1 e)
        rw [if_neg h, if_neg (Ne.symm h)]; simp; omega

theorem strLe_antisymm (s t : Str) (h1 : strLe s t = true) (h2 : strLe t s = true) : s = t := by
  induction s generalizing t with
  | nil => cases t <;> simp_all [strLe]
  | cons a s ih =>
    cases t with
    | nil => simp [strLe] at h1
    | cons b t =>
      simp only [strLe] at h1 h2
      by_cases h : a = b
      · subst h; simp at h1 h2; rw [ih t h1 h2]
      · rw [if_neg h] at h1; rw [if_neg (Ne.symm h)] at h2; simp at h1 h2; omega

theorem strLe_trans (s t u : Str) (h1 : strLe s t = true) (h2 : strLe t u = true) :
    strLe s u = true := by
  induction s generalizing t u with
  | nil => simp [strLe]
  | cons a s ih =>
    cases t with
    | nil => simp [strLe] at h1
    | cons b t =>
      cases u with
      | nil => simp [strLe] at h2
      | cons c u =>
        simp only [strLe] at *
        by_cases hab : a = b
        · subst hab
          by_cases hac : a = c
          · subst hac; simp at *; exact ih t u h1 h2
          · simp [hac] at *; exact h2
        · by_cases hbc : b = c
          · subst hbc; simp [hab] at *; exact h1
          · simp [hab, hbc] at h1 h2
            by_cases hac : a = c
            · subst hac; omega
            · simp [hac]; omega

theorem perm_insertBy (le : α → α → Bool) (x : α) (l : List α) :
    (insertBy le x l).Perm (x :: l) := by
  induction l with
  | nil => exact .refl _
  | cons y r ih =>
    rw [insertBy]; split
    · exact .refl _
    · exact (List.Perm.cons y ih).trans (.swap x y r)

theorem perm_sortBy (le : α → α → Bool) (l : List α) : (sortBy le l).Perm l := by
  induction l with
  | nil => exact .refl _
  | cons x r ih => exact (perm_insertBy le x _).trans (.cons x ih)

theorem mem_sortBy (le : α → α → Bool) (l : List α) (a : α) : a ∈ sortBy le l ↔ a ∈ l :=
  (perm_sortBy le l).mem_iff

theorem pairwise_insertBy (le : α → α → Bool)
    (htot : ∀ a b, le a b = true ∨ le b a = true)
    (htr : ∀ a b c, le a b = true → le b c = true → le a c = true)
    (x : α) (l : List α) (hl : l.Pairwise (fun a b => le a b = true)) :
    (insertBy le x l).Pairwise (fun a b => le a b = true) := by
  induction l with
  | nil => simp [insertBy]
  | cons y r ih =>
    rw [insertBy]
    rw [List.pairwise_cons] at hl
    split
    · next h =>
      rw [List.pairwise_cons]
      refine ⟨?_, List.pairwise_cons.2 hl⟩
      intro a ha
      rcases List.mem_cons.1 ha with rfl | ha
      · exact h
      · exact htr _ _ _ h (hl.1 a ha)
    · next h =>
      rw [List.pairwise_cons]
      refine ⟨?_, ih hl.2⟩
      intro a ha
      rcases List.mem_cons.1 ((perm_insertBy le x r).mem_iff.1 ha) with rfl | ha
      · rcases htot a y with h' | h'
        · exact absurd h' h
        · exact h'
      · exact hl.1 a ha

theorem pairwise_sortBy (le : α → α → Bool)
    (htot : ∀ a b, le a b = true ∨ le b a = true)
    (htr : ∀ a b c, le a b = true → le b c = true → le a c = true)
    (l : List α) : (sortBy le l).Pairwise (fun a b => le a b = true) := by
  induction l with
  | nil => simp [sortBy]
  | cons x r ih => exact pairwise_insertBy le htot htr x _ ih

/-! ### decimal numbers -/

/-- value of a text of decimal digits, most significant first -/
def digitsVal (s : Str) : Nat := s.foldl (fun a c => a * 10 + (c.toNat - 48)) 0

def isDigit (c : Char) : Bool := 48 ≤ c.toNat && c.toNat ≤ 57

theorem digitChar_toNat (n : Nat) : (Char.ofNat (48 + n % 10)).toNat = 48 + n % 10 := by
  have : n % 10 < 10 := Nat.mod_lt _ (by omega)
  have hv : (48 + n % 10).isValidChar := Or.inl (by omega)
  simp [Char.ofNat, hv, Char.toNat, Char.ofNatAux]
  omega

theorem natDigitsAux_spec (fuel n : Nat) (acc : Str) (h : n < fuel) :
    ∃ ds, natDigitsAux fuel n acc = ds ++ acc ∧ ds ≠ [] ∧ (∀ c ∈ ds, isDigit c = true) ∧
      digitsVal ds = n ∧ (∀ c r, ds = c :: r → r ≠ [] → c ≠ '0') := by
  induction fuel generalizing n acc with
  | zero => omega
  | succ fuel ih =>
    rw [natDigitsAux]
    have hd := digitChar_toNat n
    have h10 : n % 10 < 10 := Nat.mod_lt _ (by omega)
    have hdig : isDigit (Char.ofNat (48 + n % 10)) = true := by
      simp [isDigit, hd]; omega
    by_cases h0 : n / 10 = 0
    · simp only [h0, ↓reduceIte]
      refine ⟨[Char.ofNat (48 + n % 10)], rfl, by simp, by simpa using hdig, ?_, ?_⟩
      · simp [digitsVal, hd]; omega
      · intro c r h; simp at h; simp [h.2]
    · simp only [h0, ↓reduceIte]
      obtain ⟨ds, h1, h2, h3, h4, h5⟩ := ih (n / 10) (Char.ofNat (48 + n % 10) :: acc) (by omega)
      refine ⟨ds ++ [Char.ofNat (48 + n % 10)], by simp [h1], by simp, ?_, ?_, ?_⟩
      · intro c hc
        rcases List.mem_append.1 hc with hc | hc
        · exact h3 c hc
        · simp at hc; rw [hc]; exact hdig
      · have h4' : ds.foldl (fun a c => a * 10 + (c.toNat - 48)) 0 = n / 10 := h4
        simp only [digitsVal, List.foldl_append, List.foldl_cons, List.foldl_nil, h4', hd]
        omega
      · intro c r h hr
        cases ds with
        | nil => contradiction
        | cons e es =>
          simp only [List.cons_append, List.cons.injEq] at h
          obtain ⟨rfl, rfl⟩ := h
          cases es with
          | nil =>
            intro he; subst he
            simp [digitsVal] at h4; omega
          | cons f fs => exact h5 e (f :: fs) rfl (by simp)

theorem natToStr_spec (n : Nat) :
    natToStr n ≠ [] ∧ (∀ c ∈ natToStr n, isDigit c = true) ∧ digitsVal (natToStr n) = n := by
  obtain ⟨ds, h1, h2, h3, h4, _⟩ := natDigitsAux_spec (n + 1) n [] (by omega)
  rw [List.append_nil] at h1
  rw [natToStr, h1]; exact ⟨h2, h3, h4⟩

theorem natToStr_inj (m n : Nat) (h : natToStr m = natToStr n) : m = n := by
  rw [← (natToStr_spec m).2.2, ← (natToStr_spec n).2.2, h]

/-! ### dictionaries -/

namespace Dict
variable {α β : Type} [DecidableEq α]

@[simp] theorem get?_nil (a : α) : get? ([] : Dict α β) a = none := rfl

theorem get?_cons (k : α) (v : β) (r : Dict α β) (a : α) :
    get? ((k, v) :: r) a = if k = a then some v else get? r a := rfl

theorem get?_set (d : Dict α β) (a b : α) (v : β) :
    get? (set d a v) b = if a = b then some v else get? d b := by
  induction d with
  | nil => simp [set, get?]
  | cons p r ih =>
    obtain ⟨k, w⟩ := p
    rw [set]
    split
    · next h => subst h; simp only [get?_cons]; split <;> rfl
    · next h =>
      rw [get?_cons, ih, get?_cons]
      by_cases h1 : k = b
      · subst h1; simp [Ne.symm h]
      · simp [h1]

theorem mem_keys_iff (d : Dict α β) (a : α) : a ∈ keys d ↔ (get? d a).isSome = true := by
  induction d with
  | nil => simp [keys]
  | cons p r ih =>
    obtain ⟨k, w⟩ := p
    rw [get?_cons]
    simp only [keys, List.map_cons, List.mem_cons] at ih ⊢
    split
    · next h => simp [h]
    · next h => rw [← ih]; simp [Ne.symm h]

theorem get?_none_iff (d : Dict α β) (a : α) : get? d a = none ↔ a ∉ keys d := by
  rw [mem_keys_iff]; cases get? d a <;> simp

theorem get?_mem (d : Dict α β) (a : α) (v : β) (h : get? d a = some v) : (a, v) ∈ d := by
  induction d with
  | nil => simp at h
  | cons p r ih =>
    obtain ⟨k, w⟩ := p
    rw [get?_cons] at h
    split at h
    · next hk => simp at h; simp [hk, h]
    · exact List.mem_cons_of_mem _ (ih h)

theorem get?_of_mem (d : Dict α β) (hd : WF d) (a : α) (v : β) (h : (a, v) ∈ d) :
    get? d a = some v := by
  induction d with
  | nil => simp at h
  | cons p r ih =>
    obtain ⟨k, w⟩ := p
    rw [WF, keys, List.map_cons, List.nodup_cons] at hd
    rw [get?_cons]
    rcases List.mem_cons.1 h with h | h
    · simp at h; simp [h]
    · have : k ≠ a := by
        rintro rfl
        exact hd.1 (List.mem_map.2 ⟨(k, v), h, rfl⟩)
      rw [if_neg this]; exact ih hd.2 h

theorem mem_iff_get? (d : Dict α β) (hd : WF d) (a : α) (v : β) :
    (a, v) ∈ d ↔ get? d a = some v :=
  ⟨get?_of_mem d hd a v, get?_mem d a v⟩

theorem keys_set (d : Dict α β) (a : α) (v : β) :
    keys (set d a v) = if a ∈ keys d then keys d else keys d ++ [a] := by
  induction d with
  | nil => simp [set, keys]
  | cons p r ih =>
    obtain ⟨k, w⟩ := p
    rw [set]
    split
    · next h => simp [keys, h]
    · next h =>
      simp only [keys, List.map_cons, List.mem_cons, Ne.symm h, false_or] at ih ⊢
      rw [ih]; split <;> simp_all

omit [DecidableEq α] in
theorem WF_nil : WF ([] : Dict α β) := by simp [WF, keys]

theorem WF_set (d : Dict α β) (hd : WF d) (a : α) (v : β) : WF (set d a v) := by
  rw [WF, keys_set]
  split
  · exact hd
  · next h =>
    rw [List.nodup_append]
    exact ⟨hd, by simp, by intro x hx y hy; simp at hy; subst hy; rintro rfl; exact h hx⟩

theorem keys_del_sub (d : Dict α β) (a : α) : (keys (del d a)).Sublist (keys d) := by
  induction d with
  | nil => simp [del]
  | cons p r ih =>
    obtain ⟨k, w⟩ := p
    rw [del]; split
    · simp [keys]
    · simpa [keys] using ih

theorem WF_del (d : Dict α β) (hd : WF d) (a : α) : WF (del d a) :=
  (keys_del_sub d a).nodup hd

theorem get?_del (d : Dict α β) (hd : WF d) (a b : α) :
    get? (del d a) b = if a = b then none else get? d b := by
  induction d with
  | nil => simp [del]
  | cons p r ih =>
    obtain ⟨k, w⟩ := p
    rw [WF, keys, List.map_cons, List.nodup_cons] at hd
    rw [del]
    split
    · next h =>
      subst h
      rw [get?_cons]
      by_cases hb : k = b
      · subst hb; simp only [↓reduceIte]; exact (get?_none_iff r k).2 hd.1
      · simp [hb]
    · next h =>
      rw [get?_cons, ih hd.2, get?_cons]
      by_cases h1 : k = b
      · subst h1; simp [Ne.symm h]
      · simp [h1]

theorem WF_update (d e : Dict α β) (hd : WF d) : WF (update d e) := by
  rw [update]
  induction e generalizing d with
  | nil => exact hd
  | cons p r ih => exact ih _ (WF_set d hd p.1 p.2)

theorem WF_ofPairs (ps : List (α × β)) : WF (ofPairs ps) := WF_update _ _ WF_nil

theorem update_cons (d : Dict α β) (p : α × β) (e : Dict α β) :
    update d (p :: e) = update (set d p.1 p.2) e := rfl

theorem update_append (d e f : Dict α β) : update d (e ++ f) = update (update d e) f := by
  simp [update, List.foldl_append]

/-- lookup in `dict(pairs)` / `d.update(pairs)`: the last pair with the key wins -/
theorem get?_update (d e : Dict α β) (k : α) :
    get? (update d e) k = match get? e.reverse k with | some v => some v | none => get? d k := by
  induction e generalizing d with
  | nil => rfl
  | cons p r ih =>
    rw [update_cons, ih, List.reverse_cons]
    have happ : ∀ (l : Dict α β), get? (l ++ [p]) k =
        match get? l k with | some v => some v | none => if p.1 = k then some p.2 else none := by
      intro l
      induction l with
      | nil => simp [get?]
      | cons q l ihl =>
        obtain ⟨a, b⟩ := q
        rw [List.cons_append, get?_cons, get?_cons, ihl]
        by_cases h : a = k <;> simp [h]
    rw [happ]
    cases get? r.reverse k with
    | some v => rfl
    | none => simp only [get?_set]; split <;> rfl

theorem get?_perm {d e : Dict α β} (hd : WF d) (h : d.Perm e) (k : α) : get? d k = get? e k := by
  have he : WF e := by
    rw [WF] at *; exact (List.Perm.nodup_iff (h.map _)).1 hd
  cases h1 : get? d k with
  | some v => exact ((get?_of_mem e he k v (h.mem_iff.1 (get?_mem d k v h1)))).symm
  | none =>
    rw [get?_none_iff] at h1
    symm; rw [get?_none_iff]
    intro hk; exact h1 ((h.map _).mem_iff.2 hk)

theorem get?_update_WF (d e : Dict α β) (he : WF e) (k : α) :
    get? (update d e) k = match get? e k with | some v => some v | none => get? d k := by
  rw [get?_update, get?_perm (e := e) _ (List.reverse_perm e)]
  rw [WF, keys, List.map_reverse]
  exact (List.Perm.nodup_iff (List.reverse_perm _)).2 he

theorem Same.refl (d : Dict α β) : Same d d := fun _ => rfl

theorem ofPairs_eq_self (d : Dict α β) (hd : WF d) : ofPairs d = d := by
  have key : ∀ (e acc : Dict α β), WF (acc ++ e) → update acc e = acc ++ e := by
    intro e
    induction e with
    | nil => intro acc _; simp [update]
    | cons p r ih =>
      intro acc h
      rw [update_cons]
      have hset : set acc p.1 p.2 = acc ++ [p] := by
        have hnot : p.1 ∉ keys acc := by
          rw [WF, keys, List.map_append, List.nodup_append] at h
          intro hm; exact h.2.2 p.1 hm p.1 (by simp) rfl
        clear h ih
        induction acc with
        | nil => simp [set]
        | cons q acc ih =>
          obtain ⟨a, b⟩ := q
          simp only [keys, List.map_cons, List.mem_cons, not_or] at hnot
          rw [set, if_neg (Ne.symm hnot.1), ih hnot.2]; rfl
      rw [hset, ih (acc ++ [p]) (by simpa using h)]; simp
  exact key d [] (by simpa using hd)

end Dict
end Py
