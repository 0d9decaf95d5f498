import Verif.Base.SqlRows
/-! # Rows under concurrent transactions: what stays true -/

namespace SqlRows
variable {α κ : Type}

theorem seen_iff {i : Nat} {e : Entry α} : e.seen i = true ↔ (e.ins = none ∨ e.ins = some i) ∧ e.del ≠ some i := by
  simp [Entry.seen]

theorem not_held {i : Nat} {e : Entry α} :
    e.held i = false ↔ (e.ins = none ∨ e.ins = some i) ∧ (e.del = none ∨ e.del = some i) := by
  simp only [Entry.held, Bool.or_eq_false_iff, Bool.and_eq_false_iff, bne_eq_false_iff_eq]

/-- a row that is seen and not held -/
theorem target {i : Nat} {e : Entry α} (h1 : e.seen i = true) (h2 : e.held i = false) :
    (e.ins = none ∨ e.ins = some i) ∧ e.del = none := by
  rw [seen_iff] at h1
  rw [not_held] at h2
  exact ⟨h1.1, h2.2.resolve_right h1.2⟩

/-- one of the two replaces the other in an open transaction -/
def Swap (e f : Entry α) : Prop := ∃ i, e.del = some i ∧ f.ins = some i

/-- Two entries of the same key are an old row and the new one of an open transaction. -/
def Apart (key : α → κ) (e f : Entry α) : Prop := key e.row = key f.row → Swap e f ∨ Swap f e

def Distinct (key : α → κ) (l : List (Entry α)) : Prop := l.Pairwise (Apart key)

theorem Apart.symm {key : α → κ} {e f : Entry α} (h : Apart key e f) : Apart key f e :=
  fun hk => (h hk.symm).symm

/-- an untouched row has no other of the same key, and one just written only the one it replaces -/
theorem Apart.del {key : α → κ} {e f : Entry α} {i : Nat} (h : Apart key e f) (h1 : e.ins = none)
    (h2 : e.del = none) : Apart key { e with del := some i } f := by
  intro hk
  rcases h hk with ⟨j, a, b⟩ | ⟨j, a, b⟩
  · simp [h2] at a
  · simp [h1] at b

theorem drop_mem {i : Nat} {p : α → Bool} {l : List (Entry α)} {e' : Entry α} :
    e' ∈ drop i p l ↔ ∃ e ∈ l, ((e.seen i && p e.row) = true ∧ e.ins ≠ some i ∧ e' = { e with del := some i }) ∨
      ((e.seen i && p e.row) = false ∧ e' = e) := by
  simp only [drop, List.mem_filterMap]
  constructor
  · rintro ⟨e, he, h⟩
    refine ⟨e, he, ?_⟩
    split at h
    · next h1 =>
      split at h
      · simp at h
      · next h2 => exact .inl ⟨h1, by simpa using h2, by simpa using h.symm⟩
    · next h1 => exact .inr ⟨by simpa using h1, by simpa using h.symm⟩
  · rintro ⟨e, he, ⟨h1, h2, rfl⟩ | ⟨h1, rfl⟩⟩
    · exact ⟨e, he, by rw [if_pos h1, if_neg (by simpa using h2)]⟩
    · exact ⟨_, he, by rw [if_neg (by simp [h1])]⟩

theorem drop_distinct {key : α → κ} {i : Nat} {p : α → Bool} {l : List (Entry α)} (h : Distinct key l)
    (hw : ∀ e ∈ l, e.seen i = true → p e.row = true → e.held i = false) : Distinct key (drop i p l) := by
  unfold Distinct drop
  rw [List.pairwise_filterMap]
  refine List.Pairwise.imp_of_mem (R := Apart key) ?_ h
  intro e f he hf hef e' he' f' hf'
  have ht : ∀ x ∈ l, (x.seen i && p x.row) = true → ¬ (x.ins == some i) = true → x.ins = none ∧ x.del = none := by
    intro x hx hs hi
    rw [Bool.and_eq_true] at hs
    obtain ⟨h1, h2⟩ := target hs.1 (hw x hx hs.1 hs.2)
    exact ⟨h1.resolve_right (by simpa using hi), h2⟩
  split at he'
  · next h1 =>
    split at he'
    · simp at he'
    · next h2 =>
      obtain ⟨ha, hb⟩ := ht e he h1 h2
      obtain rfl : { e with del := some i } = e' := by simpa using he'
      have h3 := hef.del (i := i) ha hb
      split at hf'
      · next h1' =>
        split at hf'
        · simp at hf'
        · next h2' =>
          obtain ⟨ha', hb'⟩ := ht f hf h1' h2'
          obtain rfl : { f with del := some i } = f' := by simpa using hf'
          intro hk
          rcases hef hk with ⟨j, a, b⟩ | ⟨j, a, b⟩
          · simp [hb] at a
          · simp [hb'] at a
      · obtain rfl : f = f' := by simpa using hf'
        exact h3
  · obtain rfl : e = e' := by simpa using he'
    split at hf'
    · next h1' =>
      split at hf'
      · simp at hf'
      · next h2' =>
        obtain ⟨ha', hb'⟩ := ht f hf h1' h2'
        obtain rfl : { f with del := some i } = f' := by simpa using hf'
        exact (hef.symm.del ha' hb').symm
    · obtain rfl : f = f' := by simpa using hf'
      exact hef

/-! ## DELETE -/

theorem delete_some {i : Nat} {p : α → Bool} {l l' : List (Entry α)} {n : Nat}
    (h : delete i p l = some (l', n)) :
    (∀ e ∈ l, e.seen i = true → p e.row = true → e.held i = false) ∧ l' = drop i p l ∧
      n = (select i p l).length := by
  unfold delete at h
  split at h
  · simp at h
  · next hw =>
    simp only [Option.some.injEq, Prod.mk.injEq] at h
    refine ⟨fun e he h1 h2 => ?_, h.1.symm, h.2.symm⟩
    simp only [List.any_eq_true, not_exists, not_and, Bool.not_eq_true] at hw
    have := hw e he
    simpa [h1, h2] using this

theorem delete_distinct {key : α → κ} {i : Nat} {p : α → Bool} {l l' : List (Entry α)} {n : Nat}
    (h : delete i p l = some (l', n)) (hd : Distinct key l) : Distinct key l' := by
  obtain ⟨h1, rfl, -⟩ := delete_some h
  exact drop_distinct hd h1

/-! ## INSERT and REPLACE -/

theorem insert_some {i : Nat} {p : α → Bool} {row : α} {l l' : List (Entry α)} {b : Bool}
    (h : insert i p row l = some (l', b)) :
    (∀ e ∈ l, p e.row = true → e.held i = false) ∧
      ((b = false ∧ l' = l ∧ ∃ e ∈ l, p e.row = true ∧ e.seen i = true) ∨
        (b = true ∧ l' = l ++ [⟨row, some i, none⟩] ∧ ∀ e ∈ l, p e.row = true → e.seen i = false)) := by
  unfold insert at h
  split at h
  · simp at h
  · next hw =>
    refine ⟨fun e he h2 => ?_, ?_⟩
    · simp only [List.any_eq_true, not_exists, not_and, Bool.not_eq_true] at hw
      simpa [h2] using hw e he
    · split at h
      · next hc =>
        simp only [Option.some.injEq, Prod.mk.injEq] at h
        obtain ⟨e, he, h3⟩ := List.any_eq_true.1 hc
        rw [Bool.and_eq_true] at h3
        exact .inl ⟨h.2.symm, h.1.symm, e, he, h3.1, h3.2⟩
      · next hc =>
        simp only [Option.some.injEq, Prod.mk.injEq] at h
        refine .inr ⟨h.2.symm, h.1.symm, fun e he h2 => ?_⟩
        simp only [List.any_eq_true, not_exists, not_and, Bool.not_eq_true] at hc
        simpa [h2] using hc e he

theorem append_distinct {key : α → κ} {i : Nat} {row : α} {l : List (Entry α)} (hd : Distinct key l)
    (h : ∀ e ∈ l, key e.row = key row → e.del = some i) : Distinct key (l ++ [⟨row, some i, none⟩]) := by
  unfold Distinct
  rw [List.pairwise_append]
  refine ⟨hd, List.pairwise_singleton _ _, fun e he f hf => ?_⟩
  obtain rfl := List.mem_singleton.1 hf
  exact fun hk => .inl ⟨i, h e he hk, rfl⟩

theorem insert_distinct {key : α → κ} {i : Nat} {p : α → Bool} {row : α} {l l' : List (Entry α)} {b : Bool}
    (hp : ∀ x, p x = true ↔ key x = key row) (h : insert i p row l = some (l', b)) (hd : Distinct key l) :
    Distinct key l' := by
  obtain ⟨h1, ⟨-, rfl, -⟩ | ⟨-, rfl, h2⟩⟩ := insert_some h
  · exact hd
  · refine append_distinct hd fun e he hk => ?_
    have h3 := not_held.1 (h1 e he ((hp _).2 hk))
    have h4 := h2 e he ((hp _).2 hk)
    cases h5 : e.del == some i with
    | true => simpa using h5
    | false =>
      have : e.seen i = true := seen_iff.2 ⟨h3.1, by simpa using h5⟩
      rw [this] at h4
      simp at h4

theorem replace_some {i : Nat} {p : α → Bool} {row : α} {l l' : List (Entry α)}
    (h : replace i p row l = some l') :
    (∀ e ∈ l, p e.row = true → e.held i = false) ∧ l' = drop i p l ++ [⟨row, some i, none⟩] := by
  unfold replace at h
  split at h
  · simp at h
  · next hw =>
    simp only [Option.some.injEq] at h
    refine ⟨fun e he h2 => ?_, h.symm⟩
    simp only [List.any_eq_true, not_exists, not_and, Bool.not_eq_true] at hw
    simpa [h2] using hw e he

theorem replace_distinct {key : α → κ} {i : Nat} {p : α → Bool} {row : α} {l l' : List (Entry α)}
    (hp : ∀ x, p x = true ↔ key x = key row) (h : replace i p row l = some l') (hd : Distinct key l) :
    Distinct key l' := by
  obtain ⟨h1, rfl⟩ := replace_some h
  refine append_distinct (drop_distinct hd fun e he _ h2 => h1 e he h2) fun e' he' hk => ?_
  obtain ⟨e, he, ⟨-, -, rfl⟩ | ⟨h2, rfl⟩⟩ := drop_mem.1 he'
  · rfl
  · have h3 := (hp _).2 hk
    have h4 := not_held.1 (h1 _ he h3)
    rw [h3, Bool.and_true] at h2
    cases h5 : e'.del == some i with
    | true => simpa using h5
    | false =>
      rw [seen_iff.2 ⟨h4.1, by simpa using h5⟩] at h2
      simp at h2

/-! ## UPDATE -/

theorem update_some {i : Nat} {p : α → Bool} {f : α → α} {l l' : List (Entry α)} {n : Nat}
    (h : update i p f l = some (l', n)) :
    (∀ e ∈ l, e.seen i = true → p e.row = true → e.held i = false) ∧
      (∀ e', e' ∈ l' ↔ ∃ e ∈ l, ((e.seen i && p e.row) = true ∧ e.ins = some i ∧ e' = { e with row := f e.row }) ∨
        ((e.seen i && p e.row) = true ∧ e.ins ≠ some i ∧ (e' = { e with del := some i } ∨ e' = ⟨f e.row, some i, none⟩)) ∨
        ((e.seen i && p e.row) = false ∧ e' = e)) ∧ n = (select i p l).length := by
  unfold update at h
  split at h
  · simp at h
  · next hw =>
    simp only [Option.some.injEq, Prod.mk.injEq] at h
    refine ⟨fun e he h1 h2 => ?_, ?_, h.2.symm⟩
    · simp only [List.any_eq_true, not_exists, not_and, Bool.not_eq_true] at hw
      simpa [h1, h2] using hw e he
    · rw [← h.1]
      intro e'
      rw [List.mem_flatMap]
      refine exists_congr fun e => and_congr_right fun _ => ?_
      cases h1 : e.seen i && p e.row with
      | false => simp
      | true =>
        cases h2 : e.ins == some i with
        | true => simp [eq_of_beq h2]
        | false => have : e.ins ≠ some i := by simpa using h2
                   simp [this]

theorem update_distinct {key : α → κ} {i : Nat} {p : α → Bool} {f : α → α} {l l' : List (Entry α)} {n : Nat}
    (hf : ∀ x, key (f x) = key x) (h : update i p f l = some (l', n)) (hd : Distinct key l) :
    Distinct key l' := by
  have hw := (update_some h).1
  unfold update at h
  split at h
  · simp at h
  simp only [Option.some.injEq, Prod.mk.injEq] at h
  rw [← h.1]
  unfold Distinct
  rw [List.pairwise_flatMap]
  have ht : ∀ x ∈ l, (x.seen i && p x.row) = true → (x.ins = none ∨ x.ins = some i) ∧ x.del = none := by
    intro x hx hs
    rw [Bool.and_eq_true] at hs
    exact target hs.1 (hw x hx hs.1 hs.2)
  constructor
  · intro e he
    split
    · split
      · exact List.pairwise_singleton _ _
      · rw [List.pairwise_pair]
        exact fun _ => .inl ⟨i, rfl, rfl⟩
    · exact List.pairwise_singleton _ _
  · refine List.Pairwise.imp_of_mem (R := Apart key) ?_ hd
    intro e f' he hf' hef
    -- what an entry turns into keeps apart from all that kept apart from it
    have keep : ∀ e ∈ l, ∀ f' : Entry α, Apart key e f' → ∀ x,
        x ∈ (if e.seen i && p e.row then
          (if e.ins == some i then [{ e with row := f e.row }] else [{ e with del := some i }, ⟨f e.row, some i, none⟩])
          else [e]) → Apart key x f' := by
      intro e he f' hef x hx
      split at hx
      · next h1 =>
        obtain ⟨h2, h3⟩ := ht e he h1
        split at hx
        · obtain rfl := List.mem_singleton.1 hx
          intro hk
          exact hef (by rw [← hf]; exact hk)
        · next h4 =>
          have h5 := h2.resolve_right (by simpa using h4)
          rcases (by simpa using hx : x = _ ∨ x = _) with rfl | rfl
          · exact hef.del h5 h3
          · intro hk
            rcases hef (by rw [← hf]; exact hk) with ⟨j, a, b⟩ | ⟨j, a, b⟩
            · simp [h3] at a
            · simp [h5] at b
      · obtain rfl := List.mem_singleton.1 hx
        exact hef
    intro x hx y hy
    exact (keep f' hf' x (keep e he f' hef x hx).symm y hy).symm

/-! ## COMMIT and ROLLBACK -/

theorem commit_mem {i : Nat} {l : List (Entry α)} {e' : Entry α} :
    e' ∈ commit i l ↔ ∃ e ∈ l, e.del ≠ some i ∧
      ((e.ins = some i ∧ e' = { e with ins := none }) ∨ (e.ins ≠ some i ∧ e' = e)) := by
  simp only [commit, List.mem_filterMap]
  refine exists_congr fun e => and_congr_right fun _ => ?_
  cases h1 : e.del == some i with
  | true => simp [eq_of_beq h1]
  | false =>
    have h1' : e.del ≠ some i := by simpa using h1
    cases h2 : e.ins == some i with
    | true => simp [h1', eq_of_beq h2, eq_comm]
    | false =>
      have h2' : e.ins ≠ some i := by simpa using h2
      simp [h1', h2', eq_comm]

theorem rollback_mem {i : Nat} {l : List (Entry α)} {e' : Entry α} :
    e' ∈ rollback i l ↔ ∃ e ∈ l, e.ins ≠ some i ∧
      ((e.del = some i ∧ e' = { e with del := none }) ∨ (e.del ≠ some i ∧ e' = e)) := by
  simp only [rollback, List.mem_filterMap]
  refine exists_congr fun e => and_congr_right fun _ => ?_
  cases h1 : e.ins == some i with
  | true => simp [eq_of_beq h1]
  | false =>
    have h1' : e.ins ≠ some i := by simpa using h1
    cases h2 : e.del == some i with
    | true => simp [h1', eq_of_beq h2, eq_comm]
    | false =>
      have h2' : e.del ≠ some i := by simpa using h2
      simp [h1', h2', eq_comm]

theorem commit_distinct {key : α → κ} {l : List (Entry α)} (i : Nat) (h : Distinct key l) :
    Distinct key (commit i l) := by
  unfold Distinct commit
  rw [List.pairwise_filterMap]
  refine h.imp ?_
  have keep : ∀ e f e' : Entry α, Apart key e f → f.del ≠ some i →
      (if e.del == some i then none else if e.ins == some i then some { e with ins := none } else some e) = some e' →
      Apart key e' f := by
    intro e f e' hef hfd he'
    split at he'
    · simp at he'
    · next h1 =>
      split at he'
      · next h2 =>
        obtain rfl := Option.some.inj he'
        intro hk
        rcases hef hk with ⟨j, a, b⟩ | ⟨j, a, b⟩
        · exact .inl ⟨j, a, b⟩
        · rw [eq_of_beq h2] at b
          obtain rfl := Option.some.inj b
          exact absurd a hfd
      · obtain rfl := Option.some.inj he'
        exact hef
  intro e f hef e' he' f' hf'
  have hf1 : f.del ≠ some i := by
    intro h
    rw [h] at hf'
    simp at hf'
  have he1 : e'.del ≠ some i := by
    split at he'
    · simp at he'
    · next h1 =>
      split at he'
      · obtain rfl := Option.some.inj he'
        simpa using h1
      · obtain rfl := Option.some.inj he'
        simpa using h1
  exact (keep f e' f' (keep e f e' hef hf1 he').symm he1 hf').symm

theorem rollback_distinct {key : α → κ} {l : List (Entry α)} (i : Nat) (h : Distinct key l) :
    Distinct key (rollback i l) := by
  unfold Distinct rollback
  rw [List.pairwise_filterMap]
  refine h.imp ?_
  have keep : ∀ e f e' : Entry α, Apart key e f → f.ins ≠ some i →
      (if e.ins == some i then none else if e.del == some i then some { e with del := none } else some e) = some e' →
      Apart key e' f := by
    intro e f e' hef hfd he'
    split at he'
    · simp at he'
    · next h1 =>
      split at he'
      · next h2 =>
        obtain rfl := Option.some.inj he'
        intro hk
        rcases hef hk with ⟨j, a, b⟩ | ⟨j, a, b⟩
        · rw [eq_of_beq h2] at a
          obtain rfl := Option.some.inj a
          exact absurd b hfd
        · exact .inr ⟨j, a, b⟩
      · obtain rfl := Option.some.inj he'
        exact hef
  intro e f hef e' he' f' hf'
  have hf1 : f.ins ≠ some i := by
    intro h
    rw [h] at hf'
    simp at hf'
  have he1 : e'.ins ≠ some i := by
    split at he'
    · simp at he'
    · next h1 =>
      split at he'
      · obtain rfl := Option.some.inj he'
        simpa using h1
      · obtain rfl := Option.some.inj he'
        simpa using h1
  exact (keep f e' f' (keep e f e' hef hf1 he').symm he1 hf').symm

/-- the rows committed have different keys -/
theorem Distinct.committed {key : α → κ} {l : List (Entry α)} (h : Distinct key l) :
    (SqlRows.committed l).Pairwise fun a b => key a ≠ key b := by
  unfold SqlRows.committed
  rw [List.pairwise_map]
  refine (List.Pairwise.filter _ h).imp_of_mem ?_
  intro e f he hf hef hk
  have h1 : e.ins = none := by simpa using (List.mem_filter.1 he).2
  have h2 : f.ins = none := by simpa using (List.mem_filter.1 hf).2
  rcases hef hk with ⟨j, a, b⟩ | ⟨j, a, b⟩
  · simp [h2] at b
  · simp [h1] at b

/-! ## Whose the entries are -/

/-- transaction `i` has touched nothing -/
def Clean (i : Nat) (l : List (Entry α)) : Prop := ∀ e ∈ l, e.ins ≠ some i ∧ e.del ≠ some i

theorem rollback_clean (i : Nat) (l : List (Entry α)) : Clean i (rollback i l) := by
  intro e' he'
  obtain ⟨e, -, h1, ⟨h2, rfl⟩ | ⟨h2, rfl⟩⟩ := rollback_mem.1 he'
  · exact ⟨h1, by simp⟩
  · exact ⟨h1, h2⟩

theorem commit_clean (i : Nat) (l : List (Entry α)) : Clean i (commit i l) := by
  intro e' he'
  obtain ⟨e, -, h1, ⟨h2, rfl⟩ | ⟨h2, rfl⟩⟩ := commit_mem.1 he'
  · exact ⟨by simp, h1⟩
  · exact ⟨h2, h1⟩

theorem Clean.rollback {i : Nat} {l : List (Entry α)} (h : Clean i l) (j : Nat) : Clean i (rollback j l) := by
  intro e' he'
  obtain ⟨e, he, -, ⟨-, rfl⟩ | ⟨-, rfl⟩⟩ := rollback_mem.1 he'
  · exact ⟨(h e he).1, by simp⟩
  · exact h _ he

theorem Clean.commit {i : Nat} {l : List (Entry α)} (h : Clean i l) (j : Nat) : Clean i (commit j l) := by
  intro e' he'
  obtain ⟨e, he, -, ⟨-, rfl⟩ | ⟨-, rfl⟩⟩ := commit_mem.1 he'
  · exact ⟨by simp, (h e he).2⟩
  · exact h _ he

theorem Clean.drop {i j : Nat} {p : α → Bool} {l : List (Entry α)} (hij : j ≠ i) (h : Clean i l) :
    Clean i (drop j p l) := by
  intro e' he'
  obtain ⟨e, he, ⟨-, -, rfl⟩ | ⟨-, rfl⟩⟩ := drop_mem.1 he'
  · exact ⟨(h e he).1, by simpa using hij⟩
  · exact h _ he

theorem Clean.append {i j : Nat} {row : α} {l : List (Entry α)} (hij : j ≠ i) (h : Clean i l) :
    Clean i (l ++ [⟨row, some j, none⟩]) := by
  intro e he
  rcases List.mem_append.1 he with he | he
  · exact h e he
  · obtain rfl := List.mem_singleton.1 he
    exact ⟨by simpa using hij, by simp⟩

end SqlRows
