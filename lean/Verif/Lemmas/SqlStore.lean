import Verif.Lemmas.Store
import Verif.Lemmas.Utf8
import Verif.Model.SqlStore

namespace SqlStore
open Py Association Store

/-! ## the table as a map -/

/-- no two rows share server and handle -/
def Uniq (db : Db) : Prop := db.assocs.Pairwise fun r s => ¬ (r.1 = s.1 ∧ r.2.handle = s.2.handle)

/-- the association in the row of a server and handle -/
def view (db : Db) : AssocMap := fun u h => (selectOne u h db).head?

theorem isRow_iff (u h : Str) (r : Str × Assoc) : isRow u h r = true ↔ r.1 = u ∧ r.2.handle = h := by
  simp [isRow]

theorem filter_isRow_le (l : List (Str × Assoc))
    (hl : l.Pairwise fun r s => ¬ (r.1 = s.1 ∧ r.2.handle = s.2.handle)) (u h : Str) :
    (l.filter (isRow u h)).length ≤ 1 := by
  induction l with
  | nil => simp
  | cons r l ih =>
    rw [List.pairwise_cons] at hl
    by_cases hr : isRow u h r = true
    · rw [List.filter_cons_of_pos hr]
      have : l.filter (isRow u h) = [] := by
        rw [List.filter_eq_nil_iff]
        intro s hs hc
        rw [isRow_iff] at hr hc
        exact hl.1 s hs ⟨hr.1.trans hc.1.symm, hr.2.trans hc.2.symm⟩
      simp [this]
    · rw [List.filter_cons_of_neg hr]; exact ih hl.2

theorem selectOne_le (db : Db) (hd : Uniq db) (u h : Str) : (selectOne u h db).length ≤ 1 := by
  simpa [selectOne] using filter_isRow_le db.assocs hd u h

theorem selectOne_eq (db : Db) (hd : Uniq db) (u h : Str) : selectOne u h db = (view db u h).toList := by
  have := selectOne_le db hd u h
  unfold view
  match hs : selectOne u h db with
  | [] => rfl
  | [a] => rfl
  | a :: b :: r => rw [hs] at this; simp at this

theorem view_some_iff (db : Db) (hd : Uniq db) (u h : Str) (a : Assoc) :
    view db u h = some a ↔ (u, a) ∈ db.assocs ∧ a.handle = h := by
  have e : view db u h = some a ↔ a ∈ selectOne u h db := by
    rw [selectOne_eq db hd]; simp
  rw [e]
  simp only [selectOne, List.mem_map, List.mem_filter, isRow_iff]
  constructor
  · rintro ⟨⟨u', a'⟩, ⟨hm, h1, h2⟩, rfl⟩
    simp only at h1 h2
    subst h1
    exact ⟨hm, h2⟩
  · rintro ⟨hm, hh⟩
    exact ⟨(u, a), ⟨hm, rfl, hh⟩, rfl⟩

theorem view_handle (db : Db) (u h : Str) (a : Assoc) (hv : view db u h = some a) : a.handle = h := by
  have : a ∈ selectOne u h db := List.mem_of_mem_head? hv
  simp only [selectOne, List.mem_map, List.mem_filter, isRow_iff] at this
  obtain ⟨r, ⟨-, -, h2⟩, rfl⟩ := this
  exact h2

theorem mem_selectAll (db : Db) (hd : Uniq db) (u : Str) (a : Assoc) :
    a ∈ selectAll u db ↔ ∃ h, view db u h = some a := by
  simp only [view_some_iff db hd, selectAll, List.mem_map, List.mem_filter, beq_iff_eq]
  constructor
  · rintro ⟨⟨u', a'⟩, ⟨hm, h1⟩, rfl⟩
    simp only at h1; subst h1
    exact ⟨_, hm, rfl⟩
  · rintro ⟨h, hm, rfl⟩
    exact ⟨(u, a), ⟨hm, rfl⟩, rfl⟩

theorem ext_of_iff {x y : Option Assoc} (h : ∀ a, x = some a ↔ y = some a) : x = y := by
  cases x with
  | none =>
    cases y with
    | none => rfl
    | some a => exact (h a).2 rfl
  | some a => exact ((h a).1 rfl).symm

theorem uniq_filter (db : Db) (hd : Uniq db) (p : Str × Assoc → Bool) (n : List (Str × Int × Str)) :
    Uniq ⟨db.assocs.filter p, n⟩ := List.Pairwise.filter p hd

theorem view_filter (db : Db) (hd : Uniq db) (p : Str × Assoc → Bool) (n : List (Str × Int × Str))
    (u h : Str) :
    view ⟨db.assocs.filter p, n⟩ u h = (view db u h).filter fun a => p (u, a) := by
  apply ext_of_iff
  intro a
  rw [view_some_iff _ (uniq_filter db hd p n), Option.filter_eq_some_iff, view_some_iff _ hd, List.mem_filter]
  grind

theorem view_nonces (db : Db) (n : List (Str × Int × Str)) : view { db with nonces := n } = view db := rfl

/-! ## keys -/

/-- the backend's primary key can tell this URL from every other such URL -/
def Plain (B : Backend) (u : Str) : Prop := B ≠ .mysql ∨ (Utf8.encode u).length ≤ 255

theorem urlKey_inj (B : Backend) (u v : Str) (hu : Plain B u) (hv : Plain B v)
    (h : B.urlKey u = B.urlKey v) : u = v := by
  cases B with
  | mysql =>
    have h1 : (Utf8.encode u).length ≤ 255 := by simpa [Plain] using hu
    have h2 : (Utf8.encode v).length ≤ 255 := by simpa [Plain] using hv
    simp only [Backend.urlKey, List.take_of_length_le h1, List.take_of_length_le h2] at h
    exact Utf8.encode_inj _ _ h
  | sqlite => exact Utf8.encode_inj _ _ h
  | postgres => exact Utf8.encode_inj _ _ h

structure Inv (B : Backend) (db : Db) : Prop where
  uniq : Uniq db
  plain : ∀ r ∈ db.assocs, Plain B r.1
  types : ∀ r ∈ db.assocs, allAssociationTypes.contains r.2.assocType = true

theorem inv_empty (B : Backend) : Inv B Db.empty :=
  ⟨List.Pairwise.nil, by simp [Db.empty], by simp [Db.empty]⟩

theorem inv_filter (B : Backend) (db : Db) (hd : Inv B db) (p : Str × Assoc → Bool)
    (n : List (Str × Int × Str)) : Inv B ⟨db.assocs.filter p, n⟩ :=
  ⟨uniq_filter db hd.uniq p n, fun r hr => hd.plain r (List.mem_filter.1 hr).1,
    fun r hr => hd.types r (List.mem_filter.1 hr).1⟩

theorem sameKey_iff (B : Backend) (db : Db) (hd : Inv B db) (u h : Str) (hu : Plain B u) (r : Str × Assoc)
    (hr : r ∈ db.assocs) : sameKey B u h r = isRow u h r := by
  rw [Bool.eq_iff_iff, isRow_iff]
  simp only [sameKey, Bool.and_eq_true, beq_iff_eq]
  constructor
  · rintro ⟨h1, h2⟩; exact ⟨urlKey_inj B _ _ (hd.plain r hr) hu h1, h2⟩
  · rintro ⟨h1, h2⟩; exact ⟨by rw [h1], h2⟩

/-- after removing the row of (u, a.handle) and adding `a` -/
theorem inv_put (B : Backend) (db : Db) (hd : Inv B db) (u : Str) (a : Assoc) (hu : Plain B u)
    (ha : allAssociationTypes.contains a.assocType = true) (n : List (Str × Int × Str)) :
    Inv B ⟨db.assocs.filter (fun r => !isRow u a.handle r) ++ [(u, a)], n⟩ ∧
    view ⟨db.assocs.filter (fun r => !isRow u a.handle r) ++ [(u, a)], n⟩ =
      fun u' h => if u' = u ∧ h = a.handle then some a else view db u' h := by
  have hu1 : Uniq ⟨db.assocs.filter (fun r => !isRow u a.handle r) ++ [(u, a)], n⟩ := by
    unfold Uniq
    rw [List.pairwise_append]
    refine ⟨uniq_filter db hd.uniq _ n, by simp, ?_⟩
    intro r hr s hs hc
    rw [List.mem_singleton] at hs
    subst hs
    simp only [List.mem_filter, Bool.not_eq_true', ← Bool.not_eq_true, isRow_iff] at hr
    exact hr.2 hc
  refine ⟨⟨hu1, ?_, ?_⟩, ?_⟩
  · intro r hr
    rcases List.mem_append.1 hr with h | h
    · exact hd.plain r (List.mem_filter.1 h).1
    · rw [List.mem_singleton] at h; subst h; exact hu
  · intro r hr
    rcases List.mem_append.1 hr with h | h
    · exact hd.types r (List.mem_filter.1 h).1
    · rw [List.mem_singleton] at h; subst h; exact ha
  · funext u' h'
    apply ext_of_iff
    intro b
    rw [view_some_iff _ hu1]
    simp only [List.mem_append, List.mem_filter, List.mem_singleton, Prod.mk.injEq, Bool.not_eq_true',
      ← Bool.not_eq_true, isRow_iff]
    split
    next hc =>
      obtain ⟨rfl, rfl⟩ := hc
      simp only [Option.some.injEq]
      constructor
      · rintro ⟨⟨_, h2⟩ | ⟨_, rfl⟩, h3⟩
        · exact absurd ⟨trivial, h3⟩ h2
        · rfl
      · rintro rfl; exact ⟨.inr ⟨trivial, rfl⟩, rfl⟩
    next hc =>
      rw [view_some_iff _ hd.uniq]
      constructor
      · rintro ⟨⟨h1, h2⟩ | ⟨rfl, rfl⟩, rfl⟩
        · exact ⟨h1, rfl⟩
        · exact absurd ⟨rfl, rfl⟩ hc
      · rintro ⟨h1, rfl⟩
        exact ⟨.inl ⟨h1, hc⟩, rfl⟩

/-! ## running transactions -/

theorem bind_def (x : Txn α) (f : α → Txn β) (c : Cur) :
    (x >>= f) c = match x c with
      | (.ok a, c') => f a c'
      | (.error e, c') => (.error e, c') := rfl

theorem pure_def (a : α) (c : Cur) : (pure a : Txn α) c = (.ok a, c) := rfl

/-- a computation inside a transaction that ended well did `a` and left `db` -/
theorem bind_ok {x : Txn α} {f : α → Txn β} {c c'' : Cur} {b : β} :
    (x >>= f) c = (.ok b, c'') ↔ ∃ a c', x c = (.ok a, c') ∧ f a c' = (.ok b, c'') := by
  rw [bind_def]
  match x c with
  | (.ok a, c') => simp only [Prod.mk.injEq, Except.ok.injEq]; grind
  | (.error e, c') => simp

theorem execute_ok {f : Fault} {s : Db → Except PyErr (Db × Nat)} {c c' : Cur} {u : Unit} :
    execute f s c = (.ok u, c') ↔ f c.n = none ∧ ∃ db k, s c.db = .ok (db, k) ∧ c' = ⟨db, c.n + 1, k⟩ := by
  unfold execute
  split
  next h => simp [h]
  next h =>
    split
    next h2 => simp [h2]
    next db k h2 => simp [h, h2]; grind

theorem select_ok {f : Fault} {q : Db → List α} {c c' : Cur} {l : List α} :
    select f q c = (.ok l, c') ↔ f c.n = none ∧ l = q c.db ∧ c' = { c with n := c.n + 1 } := by
  unfold select
  split
  next h => simp [h]
  next h => simp [h, eq_comm]

theorem remove_ok {f : Fault} {u h : Str} {c c' : Cur} {b : Bool} :
    txnRemoveAssociation f u h c = (.ok b, c') →
      c'.db = { c.db with assocs := c.db.assocs.filter fun r => !isRow u h r } ∧
      b = decide (0 < (c.db.assocs.filter (isRow u h)).length) := by
  intro hh
  rw [txnRemoveAssociation, bind_ok] at hh
  obtain ⟨_, c1, h1, h2⟩ := hh
  rw [execute_ok] at h1
  obtain ⟨-, db, k, hs, rfl⟩ := h1
  simp only [deleteRows, Except.ok.injEq, Prod.mk.injEq] at hs
  obtain ⟨rfl, rfl⟩ := hs
  rw [bind_ok] at h2
  obtain ⟨k, c2, h3, h4⟩ := h2
  simp only [getRowcount, Prod.mk.injEq, Except.ok.injEq] at h3
  obtain ⟨rfl, rfl⟩ := h3
  rw [pure_def] at h4
  simp only [Prod.mk.injEq, Except.ok.injEq] at h4
  obtain ⟨rfl, rfl⟩ := h4
  exact ⟨rfl, rfl⟩

theorem keepRow_ok {f : Fault} {s : Int} {u : Str} {r : Assoc} {c c' : Cur} {l : List Assoc} :
    keepRow f s u r c = (.ok l, c') →
      (expired s r ∧ l = [] ∧ c'.db = { c.db with assocs := c.db.assocs.filter fun x => !isRow u r.handle x }) ∨
      (¬ expired s r ∧ l = [r] ∧ c'.db = c.db) := by
  intro h
  by_cases ht : allAssociationTypes.contains r.assocType = true
  · simp only [keepRow, Assoc.new, ht, if_true] at h
    split at h
    next he =>
      rw [bind_ok] at h
      obtain ⟨b, c1, h1, h2⟩ := h
      rw [pure_def] at h2
      simp only [Prod.mk.injEq, Except.ok.injEq] at h2
      obtain ⟨rfl, rfl⟩ := h2
      refine .inl ⟨?_, rfl, (remove_ok h1).1⟩
      simp only [Assoc.getExpiresIn, beq_iff_eq] at he
      unfold expired
      omega
    next he =>
      rw [pure_def] at h
      simp only [Prod.mk.injEq, Except.ok.injEq] at h
      obtain ⟨rfl, rfl⟩ := h
      refine .inr ⟨?_, rfl, rfl⟩
      simp only [Assoc.getExpiresIn, beq_iff_eq] at he
      unfold expired
      omega
  · simp only [keepRow, Assoc.new, if_neg ht] at h
    simp [Txn.raise] at h

theorem keepRows_ok {f : Fault} {s : Int} {u : Str} {rs : List Assoc} {c c' : Cur} {l : List Assoc} :
    keepRows f s u rs c = (.ok l, c') →
      l = rs.filter (fun r => decide (¬ expired s r)) ∧
      c'.db = { c.db with assocs := c.db.assocs.filter fun x =>
        !(rs.any fun r => decide (expired s r) && isRow u r.handle x) } := by
  induction rs generalizing c l with
  | nil =>
    intro h
    simp only [keepRows, pure_def, Prod.mk.injEq, Except.ok.injEq] at h
    obtain ⟨rfl, rfl⟩ := h
    have : ∀ l : List (Str × Assoc), l.filter (fun _ => true) = l := fun l => List.filter_eq_self.2 (by simp)
    simp [this]
  | cons r rs ih =>
    intro h
    simp only [keepRows, bind_ok, pure_def, Prod.mk.injEq, Except.ok.injEq] at h
    obtain ⟨x, c1, h1, y, c2, h2, rfl, rfl⟩ := h
    obtain ⟨rfl, e2⟩ := ih h2
    rcases keepRow_ok h1 with ⟨he, rfl, e1⟩ | ⟨he, rfl, e1⟩
    · refine ⟨by simp [he], ?_⟩
      rw [e2, e1]
      simp only [List.filter_filter, he, decide_true, Bool.true_and, List.any_cons, Bool.not_or]
      congr 2
      funext x
      rw [Bool.and_comm]
    · refine ⟨by simp [he], ?_⟩
      rw [e2, e1]
      simp [he]

theorem mem_expired_any (s : Int) (u : Str) (rs : List Assoc) (x : Str × Assoc)
    (hx : ∀ r ∈ rs, isRow u r.handle x = true → x = (u, r)) (hr : x.1 = u → x.2 ∈ rs ∨ ∀ r ∈ rs, ¬ isRow u r.handle x = true) :
    (rs.any fun r => decide (expired s r) && isRow u r.handle x) =
      (decide (x.1 = u) && decide (x.2 ∈ rs) && decide (expired s x.2)) := by
  rw [Bool.eq_iff_iff]
  simp only [List.any_eq_true, Bool.and_eq_true, decide_eq_true_eq]
  constructor
  · rintro ⟨r, hm, he, hi⟩
    have := hx r hm hi
    subst this
    exact ⟨⟨rfl, hm⟩, he⟩
  · rintro ⟨⟨h1, h2⟩, h3⟩
    exact ⟨x.2, h2, h3, (isRow_iff _ _ _).2 ⟨h1, rfl⟩⟩

/-- the rows as fetched for a lookup -/
theorem fetchRows_ok {f : Fault} {u : Str} {handle : Option Str} {c c' : Cur} {rows : List Assoc}
    (hd : Uniq c.db) (h : fetchRows f u handle c = (.ok rows, c')) :
    c' = { c with n := c.n + 1 } ∧
    ∀ a, a ∈ rows ↔ ∃ h, (handle = none ∨ handle = some h) ∧ view c.db u h = some a := by
  cases handle with
  | none =>
    obtain ⟨-, rfl, rfl⟩ := select_ok.1 h
    refine ⟨rfl, fun a => ?_⟩
    rw [mem_selectAll c.db hd]
    simp
  | some h' =>
    obtain ⟨-, rfl, rfl⟩ := select_ok.1 h
    refine ⟨rfl, fun a => ?_⟩
    rw [selectOne_eq c.db hd]
    simp

theorem lookup_db (s : Int) (db : Db) (hd : Uniq db) (u : Str) (handle : Option Str) (rows : List Assoc)
    (hr : ∀ a, a ∈ rows ↔ ∃ h, (handle = none ∨ handle = some h) ∧ view db u h = some a) :
    view { db with assocs := db.assocs.filter fun x =>
        !(rows.any fun r => decide (expired s r) && isRow u r.handle x) } =
      fun u' h' => if u' = u ∧ (handle = none ∨ handle = some h')
        then (view db u' h').filter fun a => ¬ expired s a else view db u' h' := by
  funext u' h'
  rw [view_filter db hd]
  cases hv : view db u' h' with
  | none => simp
  | some a =>
    have hh := view_handle db u' h' a hv
    by_cases hc : u' = u ∧ (handle = none ∨ handle = some h')
    · obtain ⟨rfl, hc⟩ := hc
      rw [if_pos ⟨rfl, hc⟩]
      by_cases he : expired s a
      · have : (rows.any fun r => decide (expired s r) && isRow u' r.handle (u', a)) = true := by
          rw [List.any_eq_true]
          exact ⟨a, (hr a).2 ⟨h', hc, hv⟩, by simp [he, isRow_iff]⟩
        simp [Option.filter, he, this]
      · have : (rows.any fun r => decide (expired s r) && isRow u' r.handle (u', a)) = false := by
          rw [List.any_eq_false]
          intro r hm hb
          simp only [Bool.and_eq_true, decide_eq_true_eq, isRow_iff] at hb
          obtain ⟨h2, -, h3⟩ := (hr r).1 hm
          have e2 := view_handle db u' h2 r h3
          rw [← e2, ← hb.2.2, hh, hv] at h3
          cases h3
          exact he hb.1
        simp [Option.filter, he, this]
    · rw [if_neg hc]
      have : (rows.any fun r => decide (expired s r) && isRow u r.handle (u', a)) = false := by
        rw [List.any_eq_false]
        intro r hm hb
        simp only [Bool.and_eq_true, decide_eq_true_eq, isRow_iff] at hb
        obtain ⟨h2, hc2, h3⟩ := (hr r).1 hm
        have e2 := view_handle db u h2 r h3
        refine hc ⟨hb.2.1, ?_⟩
        have : h2 = h' := by rw [← e2, ← hb.2.2, hh]
        rw [← this]; exact hc2
      simp [Option.filter, this]

/-! ## choosing the latest -/

theorem sortBy_getLast (l : List Assoc) (a : Assoc)
    (h : (sortBy (fun a b => decide (a.issued ≤ b.issued)) l).getLast? = some a) :
    a ∈ l ∧ ∀ b ∈ l, b.issued ≤ a.issued := by
  have hp := pairwise_sortBy (fun a b : Assoc => decide (a.issued ≤ b.issued))
    (fun a b => by simp only [decide_eq_true_eq]; omega)
    (fun a b c => by simp only [decide_eq_true_eq]; omega) l
  have hm := mem_sortBy (fun a b : Assoc => decide (a.issued ≤ b.issued)) l
  refine ⟨(hm a).1 (List.mem_of_getLast? h), fun b hb => ?_⟩
  have hb' := (hm b).2 hb
  generalize sortBy _ l = s at *
  obtain ⟨pre, rfl⟩ : ∃ pre, s = pre ++ [a] := by
    rw [List.getLast?_eq_some_iff] at h; exact h
  rw [List.pairwise_append] at hp
  rcases List.mem_append.1 hb' with h1 | h1
  · simpa using hp.2.2 b h1 a (by simp)
  · rw [List.mem_singleton] at h1; subst h1; omega

theorem latest_ok (l : List Assoc) (r : Option Assoc) (h : latest l = .ok r) :
    (r = none ↔ l = []) ∧ ∀ a, r = some a → a ∈ l ∧ ∀ b ∈ l, b.issued ≤ a.issued := by
  unfold latest at h
  split at h
  · cases h
  · cases h
    refine ⟨?_, fun a ha => sortBy_getLast l a ha⟩
    rw [List.getLast?_eq_none_iff]
    have := (perm_sortBy (fun a b : Assoc => decide (a.issued ≤ b.issued)) l).length_eq
    rw [← List.length_eq_zero_iff, ← List.length_eq_zero_iff, this]

theorem latest_error (l : List Assoc) (e : PyErr) :
    latest l = .error e ↔ e = .typeError ∧ ∃ a ∈ l, ∃ b ∈ l, a ≠ b ∧ a.issued = b.issued := by
  unfold latest
  split
  next h =>
    simp only [List.any_eq_true, Bool.and_eq_true, beq_iff_eq, bne_iff_ne] at h
    obtain ⟨a, ha, b, hb, h1, h2⟩ := h
    constructor
    · intro h; cases h; exact ⟨rfl, a, ha, b, hb, h2, h1⟩
    · rintro ⟨rfl, -⟩; rfl
  next h =>
    constructor
    · intro h; cases h
    · rintro ⟨rfl, a, ha, b, hb, h2, h1⟩
      exfalso; apply h
      simp only [List.any_eq_true, Bool.and_eq_true, beq_iff_eq, bne_iff_ne]
      exact ⟨a, ha, b, hb, h1, h2⟩

/-! ## whole operations -/

theorem txn_store_ok {D : Driver} {f : Fault} {u : Str} {a : Assoc} {c c' : Cur} {x : Unit}
    (hd : Inv D.backend c.db) (hu : Plain D.backend u) (ha : allAssociationTypes.contains a.assocType = true)
    (h : txnStoreAssociation D.backend f u a c = (.ok x, c')) :
    Inv D.backend c'.db ∧
    view c'.db = (fun u' h => if u' = u ∧ h = a.handle then some a else view c.db u' h) ∧
    c'.db.nonces = c.db.nonces := by
  have repl : ∀ f c c', Inv D.backend c.db → execute f (replaceInto D.backend u a) c = (.ok x, c') →
      Inv D.backend c'.db ∧
      view c'.db = (fun u' h => if u' = u ∧ h = a.handle then some a else view c.db u' h) ∧
      c'.db.nonces = c.db.nonces := by
    intro f c c' hd h
    rw [execute_ok] at h
    obtain ⟨-, db, k, hs, rfl⟩ := h
    simp only [replaceInto, Except.ok.injEq, Prod.mk.injEq] at hs
    obtain ⟨rfl, rfl⟩ := hs
    have : c.db.assocs.filter (fun r => !sameKey D.backend u a.handle r) =
        c.db.assocs.filter (fun r => !isRow u a.handle r) :=
      List.filter_congr fun r hr => by rw [sameKey_iff D.backend c.db hd u a.handle hu r hr]
    simp only [this]
    obtain ⟨h1, h2⟩ := inv_put D.backend c.db hd u a hu ha c.db.nonces
    exact ⟨h1, h2, trivial⟩
  unfold txnStoreAssociation at h
  split at h
  next hB =>
    unfold postgresSetAssoc at h
    rw [bind_ok] at h
    obtain ⟨rows, c1, h1, h2⟩ := h
    rw [select_ok] at h1
    obtain ⟨-, rfl, rfl⟩ := h1
    split at h2
    next hl =>
      rw [execute_ok] at h2
      obtain ⟨-, db, k, hs, rfl⟩ := h2
      simp only [insertInto] at hs
      split at hs
      · cases hs
      · simp only [Except.ok.injEq, Prod.mk.injEq] at hs
        obtain ⟨rfl, rfl⟩ := hs
        have hnil : c.db.assocs.filter (isRow u a.handle) = [] := by
          rw [← List.length_eq_zero_iff]; simpa [selectOne] using hl
        have : c.db.assocs.filter (fun r => !isRow u a.handle r) = c.db.assocs := by
          rw [List.filter_eq_self]
          intro r hr
          have := (List.filter_eq_nil_iff.1 hnil) r hr
          simp [this]
        obtain ⟨h1, h2⟩ := inv_put D.backend c.db hd u a hu ha c.db.nonces
        rw [this] at h1 h2
        exact ⟨h1, h2, rfl⟩
    next hl =>
      rw [execute_ok] at h2
      obtain ⟨-, db, k, hs, rfl⟩ := h2
      simp only [updateRow, Except.ok.injEq, Prod.mk.injEq] at hs
      obtain ⟨rfl, rfl⟩ := hs
      have hmem : ∀ r ∈ c.db.assocs, (if isRow u a.handle r then (r.1, { a with handle := r.2.handle }) else r) =
          if isRow u a.handle r then (u, a) else r := by
        intro r hr
        split
        next hi =>
          rw [isRow_iff] at hi
          rw [hi.1, hi.2]
        next => rfl
      have hmap := List.map_congr_left hmem
      have hkey : ∀ r : Str × Assoc, (if isRow u a.handle r then (u, a) else r).1 = r.1 ∧
          (if isRow u a.handle r then (u, a) else r).2.handle = r.2.handle := by
        intro r
        split
        next hi => rw [isRow_iff] at hi; exact ⟨hi.1.symm, hi.2.symm⟩
        next => exact ⟨rfl, rfl⟩
      have huq : Uniq ⟨c.db.assocs.map fun r => if isRow u a.handle r then (u, a) else r, c.db.nonces⟩ := by
        unfold Uniq
        rw [List.pairwise_map]
        refine hd.uniq.imp ?_
        intro r s hrs hc
        rw [(hkey r).1, (hkey r).2, (hkey s).1, (hkey s).2] at hc
        exact hrs hc
      simp only [hmap]
      refine ⟨⟨huq, ?_, ?_⟩, ?_, trivial⟩
      · intro r hr
        rw [List.mem_map] at hr
        obtain ⟨r0, h0, rfl⟩ := hr
        rw [(hkey r0).1]; exact hd.plain r0 h0
      · intro r hr
        rw [List.mem_map] at hr
        obtain ⟨r0, h0, rfl⟩ := hr
        split
        · exact ha
        · exact hd.types r0 h0
      · funext u' h'
        apply ext_of_iff
        intro b
        rw [view_some_iff _ huq]
        simp only [List.mem_map]
        have hex : ∃ a0, (u, a0) ∈ c.db.assocs ∧ a0.handle = a.handle := by
          have : selectOne u a.handle c.db ≠ [] := fun he => hl (by rw [he]; rfl)
          obtain ⟨x, r, hx⟩ := List.exists_cons_of_ne_nil this
          have hm : x ∈ selectOne u a.handle c.db := by simp [hx]
          rw [selectOne_eq c.db hd.uniq] at hm
          exact ⟨x, (view_some_iff c.db hd.uniq _ _ _).1 (by simpa using hm)⟩
        split
        next hc =>
          obtain ⟨rfl, rfl⟩ := hc
          simp only [Option.some.injEq]
          constructor
          · rintro ⟨⟨r, hr, he⟩, hh⟩
            split at he
            next => exact (Prod.mk.inj he).2
            next hi => subst he; exact absurd ((isRow_iff _ _ _).2 ⟨rfl, hh⟩) hi
          · rintro rfl
            obtain ⟨a0, h0, h1⟩ := hex
            exact ⟨⟨(u', a0), h0, by rw [if_pos ((isRow_iff u' a.handle (u', a0)).2 ⟨rfl, h1⟩)]⟩, rfl⟩
        next hc =>
          rw [view_some_iff _ hd.uniq]
          constructor
          · rintro ⟨⟨r, hr, he⟩, hh⟩
            split at he
            next => cases he; exact absurd ⟨rfl, hh.symm⟩ hc
            next hi => subst he; exact ⟨hr, hh⟩
          · rintro ⟨hm, hh⟩
            refine ⟨⟨_, hm, ?_⟩, hh⟩
            rw [if_neg]
            rw [isRow_iff]
            rintro ⟨h1, h2⟩
            exact hc ⟨h1, by rw [← hh]; exact h2⟩
  next => exact repl f c c' hd h

theorem txn_get_ok {f : Fault} {s : Int} {u : Str} {handle : Option Str} {c c' : Cur} {r : Option Assoc}
    (hd : Uniq c.db) (h : txnGetAssociation f s u handle c = (.ok r, c')) :
    ∃ rows : List Assoc,
      (∀ a, a ∈ rows ↔ ∃ h, (handle = none ∨ handle = some h) ∧ view c.db u h = some a ∧ ¬ expired s a) ∧
      latest rows = .ok r ∧
      (∃ p, c'.db = { c.db with assocs := c.db.assocs.filter p }) ∧
      view c'.db = fun u' h' => if u' = u ∧ (handle = none ∨ handle = some h')
        then (view c.db u' h').filter fun a => ¬ expired s a else view c.db u' h' := by
  unfold txnGetAssociation at h
  rw [bind_ok] at h
  obtain ⟨rows, c1, h1, h2⟩ := h
  obtain ⟨rfl, hf⟩ := fetchRows_ok hd h1
  rw [bind_ok] at h2
  obtain ⟨l, c2, h3, h4⟩ := h2
  simp only [Txn.ofExcept, Prod.mk.injEq] at h4
  obtain ⟨h4, rfl⟩ := h4
  obtain ⟨rfl, e⟩ := keepRows_ok h3
  refine ⟨_, ?_, h4, ⟨_, e⟩, ?_⟩
  · intro a
    rw [List.mem_filter, hf]
    simp only [decide_eq_true_eq]
    constructor
    · rintro ⟨⟨h, h1, h2⟩, h3⟩; exact ⟨h, h1, h2, h3⟩
    · rintro ⟨h, h1, h2, h3⟩; exact ⟨⟨h, h1, h2⟩, h3⟩
  · rw [e]
    exact lookup_db s c.db hd u handle rows hf

theorem outside_iff (c : Clock) (now : Nat) (t : Int) :
    outside c now t = true ↔ ¬ c.within Nonce.SKEW now t := by
  have : 0 ≤ Nonce.SKEW * (c.tick : Int) := Int.mul_nonneg (by decide) (by omega)
  simp only [outside, Clock.within, decide_eq_true_eq]
  omega

/-- the outcome of a whole call that did not raise -/
theorem call_ok {D : Driver} {c : Clock} {conn : Conn} {e : Call} {a : Answer} {conn' : Conn}
    (h : call D c conn e = (.ok a, conn')) :
    (∃ cur, txn D c e.fault e.now e.op ⟨conn.committed, 0, 0⟩ = (.ok a, cur) ∧ conn' = ⟨cur.db, cur.db⟩) ∨
    (D.backend = .sqlite ∧ (∃ u t s, e.op = .useNonce u t s) ∧ a = .bool false ∧
      conn'.committed = conn.committed ∧
      ((∃ cur, txn D c e.fault e.now e.op ⟨conn.committed, 0, 0⟩ = (.error (.operationalError true), cur)) ∨
        e.commitFault = some (.operationalError true))) := by
  unfold call at h
  generalize hr : callInTransaction (txn D c e.fault e.now e.op) e.commitFault conn = r at h
  unfold sqliteCatch at h
  unfold callInTransaction at hr
  split at h
  next op u t s conn0 hop =>
    split at h
    next hB =>
      simp only [Prod.mk.injEq, Except.ok.injEq] at h
      obtain ⟨rfl, rfl⟩ := h
      refine .inr ⟨hB, ⟨u, t, s, hop⟩, rfl, ?_⟩
      simp only at hr
      split at hr
      next e' cur ht =>
        simp only [Prod.mk.injEq, Except.error.injEq] at hr
        obtain ⟨rfl, rfl⟩ := hr
        exact ⟨rfl, .inl ⟨cur, ht⟩⟩
      next a' cur ht =>
        split at hr
        next e' hcf =>
          simp only [Prod.mk.injEq, Except.error.injEq] at hr
          obtain ⟨rfl, rfl⟩ := hr
          exact ⟨rfl, .inr hcf⟩
        next => cases hr
    next => cases h
  next =>
    subst h
    left
    simp only at hr
    split at hr
    next e' cur ht => cases hr
    next a' cur ht =>
      split at hr
      · cases hr
      · simp only [Prod.mk.injEq, Except.ok.injEq] at hr
        obtain ⟨rfl, rfl⟩ := hr
        exact ⟨cur, ht, rfl⟩

/-- a call that raised left the database as it was -/
theorem call_error {D : Driver} {c : Clock} {conn : Conn} {e : Call} {err : PyErr} {conn' : Conn}
    (h : call D c conn e = (.error err, conn')) :
    conn'.committed = conn.committed ∧
    ((∃ cur, txn D c e.fault e.now e.op ⟨conn.committed, 0, 0⟩ = (.error err, cur)) ∨
      e.commitFault = some err) := by
  have hct : ∀ r, callInTransaction (txn D c e.fault e.now e.op) e.commitFault conn = (.error err, r) →
      r.committed = conn.committed ∧
      ((∃ cur, txn D c e.fault e.now e.op ⟨conn.committed, 0, 0⟩ = (.error err, cur)) ∨
        e.commitFault = some err) := by
    intro r hr
    unfold callInTransaction at hr
    simp only at hr
    split at hr
    next e' cur ht =>
      simp only [Prod.mk.injEq, Except.error.injEq] at hr
      obtain ⟨rfl, rfl⟩ := hr
      exact ⟨rfl, .inl ⟨cur, ht⟩⟩
    next a' cur ht =>
      split at hr
      next e' hcf =>
        simp only [Prod.mk.injEq, Except.error.injEq] at hr
        obtain ⟨rfl, rfl⟩ := hr
        exact ⟨rfl, .inr hcf⟩
      next => cases hr
  unfold call at h
  generalize hr : callInTransaction (txn D c e.fault e.now e.op) e.commitFault conn = r at h
  unfold sqliteCatch at h
  split at h
  next =>
    split at h
    · cases h
    · simp only [Prod.mk.injEq, Except.error.injEq] at h
      obtain ⟨rfl, rfl⟩ := h
      exact hct _ hr
  next => subst h; exact hct _ hr

/-- the calls of a program: associations have a known type, and MySQL only gets URLs it can tell apart -/
def GoodCall (D : Driver) (e : Call) : Prop :=
  ∀ u a, e.op = .storeAssociation u a →
    Plain D.backend u ∧ allAssociationTypes.contains a.assocType = true

theorem txn_table {D : Driver} {c : Clock} {f : Fault} {now : Nat} {op : Op} {cur cur' : Cur} {a : Answer}
    (hd : Inv D.backend cur.db)
    (hg : ∀ u a, op = .storeAssociation u a →
      Plain D.backend u ∧ allAssociationTypes.contains a.assocType = true)
    (h : txn D c f now op cur = (.ok a, cur')) :
    Inv D.backend cur'.db ∧ view cur'.db = tableStep c (view cur.db) ((now, op), .ok a) := by
  cases op with
  | storeAssociation u as =>
    simp only [txn, bind_ok, pure_def] at h
    obtain ⟨x, c1, h1, h2⟩ := h
    cases h2
    obtain ⟨i1, i2, -⟩ := txn_store_ok hd (hg u as rfl).1 (hg u as rfl).2 h1
    exact ⟨i1, i2⟩
  | getAssociation u handle =>
    simp only [txn, bind_ok, pure_def] at h
    obtain ⟨x, c1, h1, h2⟩ := h
    cases h2
    obtain ⟨rows, -, -, ⟨p, hp⟩, hv⟩ := txn_get_ok hd.uniq h1
    exact ⟨by rw [hp]; exact inv_filter _ _ hd p _, hv⟩
  | removeAssociation u h' =>
    simp only [txn, bind_ok, pure_def] at h
    obtain ⟨x, c1, h1, h2⟩ := h
    cases h2
    obtain ⟨e, -⟩ := remove_ok h1
    refine ⟨by rw [e]; exact inv_filter _ _ hd _ _, ?_⟩
    rw [e]
    funext u2 h2
    rw [view_filter cur.db hd.uniq]
    show _ = if u2 = u ∧ h2 = h' then none else view cur.db u2 h2
    cases hv : view cur.db u2 h2 with
    | none => simp
    | some b =>
      have := view_handle _ _ _ _ hv
      by_cases hc : u2 = u ∧ h2 = h'
      · have : isRow u h' (u2, b) = true := (isRow_iff _ _ _).2 ⟨hc.1, this.trans hc.2⟩
        simp only [Option.filter, this, if_pos hc]; rfl
      · have : isRow u h' (u2, b) = false := by
          rw [← Bool.not_eq_true, isRow_iff]
          rintro ⟨h1, h3⟩; exact hc ⟨h1, by rw [← this]; exact h3⟩
        simp [Option.filter, this, hc]
  | useNonce u t s =>
    simp only [txn, bind_ok, pure_def] at h
    obtain ⟨x, c1, h1, h2⟩ := h
    cases h2
    unfold txnUseNonce at h1
    split at h1
    · cases h1; exact ⟨hd, rfl⟩
    · unfold Txn.except at h1
      split at h1
      next b c2 h3 =>
        simp only [Prod.mk.injEq, Except.ok.injEq] at h1
        obtain ⟨rfl, rfl⟩ := h1
        simp only [bind_ok, pure_def, execute_ok] at h3
        obtain ⟨_, c3, ⟨-, db, k, hs, rfl⟩, h4⟩ := h3
        cases h4
        simp only [insertNonce] at hs
        split at hs
        · cases hs
        · cases hs; exact ⟨⟨hd.uniq, hd.plain, hd.types⟩, rfl⟩
      next e' c2 h3 =>
        split at h1
        · simp only [Prod.mk.injEq, Except.ok.injEq] at h1
          obtain ⟨rfl, rfl⟩ := h1
          have : c2.db = cur.db := by
            rw [bind_def] at h3
            unfold execute at h3
            split at h3
            next a1 c4 h5 => cases h3
            next e1 c4 h5 =>
              simp only [Prod.mk.injEq, Except.error.injEq] at h3
              obtain ⟨rfl, rfl⟩ := h3
              split at h5
              · simp only [Prod.mk.injEq] at h5; rw [← h5.2]
              · split at h5
                · simp only [Prod.mk.injEq] at h5; rw [← h5.2]
                · simp at h5
          rw [this]; exact ⟨hd, rfl⟩
        · simp at h1
  | cleanupNonces =>
    simp only [txn, txnCleanupNonces, bind_ok, pure_def, execute_ok, getRowcount] at h
    obtain ⟨x, c1, ⟨_, c2, ⟨-, db, k, hs, rfl⟩, h3⟩, h2⟩ := h
    cases h2; cases h3; cases hs
    exact ⟨⟨hd.uniq, hd.plain, hd.types⟩, rfl⟩
  | cleanupAssociations =>
    simp only [txn, txnCleanupAssociations, bind_ok, pure_def, execute_ok, getRowcount] at h
    obtain ⟨x, c1, ⟨_, c2, ⟨-, db, k, hs, rfl⟩, h3⟩, h2⟩ := h
    cases h2; cases h3; cases hs
    refine ⟨inv_filter _ _ hd _ _, ?_⟩
    funext u h
    rw [view_filter cur.db hd.uniq]
    show _ = (view cur.db u h).filter fun a => decide (¬ a.issued + a.lifetime < c.seconds now)
    congr 1
    funext a
    rw [decide_not]

theorem step_table {D : Driver} {c : Clock} {db : Db} {e : Call} (hd : Inv D.backend db) (hg : GoodCall D e) :
    Inv D.backend (step D c db e).1 ∧
    view (step D c db e).1 = tableStep c (view db) ((e.now, e.op), (step D c db e).2) := by
  unfold step
  match hc : call D c ⟨db, db⟩ e with
  | (.ok a, conn') =>
    rcases call_ok hc with ⟨cur, ht, rfl⟩ | ⟨-, ⟨u, t, s, hop⟩, rfl, hcm, -⟩
    · exact txn_table (cur := ⟨db, 0, 0⟩) hd hg ht
    · rw [hcm, hop]; exact ⟨hd, rfl⟩
  | (.error err, conn') =>
    rw [(call_error hc).1]
    exact ⟨hd, by simp [tableStep]⟩

/-! ## nonces -/

theorem execute_error {f : Fault} {s : Db → Except PyErr (Db × Nat)} {c c' : Cur} {e : PyErr}
    (h : execute f s c = (.error e, c')) : c'.db = c.db ∧ (f c.n = some e ∨ (f c.n = none ∧ s c.db = .error e)) := by
  unfold execute at h
  split at h
  next e' h5 =>
    simp only [Prod.mk.injEq, Except.error.injEq] at h
    obtain ⟨rfl, rfl⟩ := h
    exact ⟨rfl, .inl h5⟩
  next h5 =>
    split at h
    next e' h6 =>
      simp only [Prod.mk.injEq, Except.error.injEq] at h
      obtain ⟨rfl, rfl⟩ := h
      exact ⟨rfl, .inr ⟨h5, h6⟩⟩
    next => cases h

theorem useNonce_ok {D : Driver} {c : Clock} {f : Fault} {now : Nat} {u : Str} {t : Int} {s : Str}
    {cur cur' : Cur} {b : Bool} (h : txnUseNonce D c f now u t s cur = (.ok b, cur')) :
    (b = true ∧ c.within Nonce.SKEW now t ∧ (∀ k ∈ cur.db.nonces, ¬ sameNonce D.backend (u, t, s) k = true) ∧
      cur'.db = { cur.db with nonces := cur.db.nonces ++ [(u, t, s)] }) ∨
    (b = false ∧ cur'.db = cur.db ∧
      (c.within Nonce.SKEW now t → (f cur.n).isSome = true ∨ ∃ k ∈ cur.db.nonces, sameNonce D.backend (u, t, s) k = true)) := by
  unfold txnUseNonce at h
  split at h
  next ho =>
    cases h
    rw [outside_iff] at ho
    exact .inr ⟨rfl, rfl, fun h => absurd h ho⟩
  next ho =>
    rw [outside_iff, Classical.not_not] at ho
    unfold Txn.except at h
    split at h
    next b' c2 h3 =>
      simp only [Prod.mk.injEq, Except.ok.injEq] at h
      obtain ⟨rfl, rfl⟩ := h
      simp only [bind_ok, pure_def, execute_ok] at h3
      obtain ⟨_, c3, ⟨-, db, k, hs, rfl⟩, h4⟩ := h3
      cases h4
      simp only [insertNonce] at hs
      split at hs
      · cases hs
      next hany =>
        cases hs
        refine .inl ⟨rfl, ho, ?_, rfl⟩
        intro k hk hsame
        exact hany (List.any_eq_true.2 ⟨k, hk, hsame⟩)
    next e' c2 h3 =>
      split at h
      next hi =>
        simp only [Prod.mk.injEq, Except.ok.injEq] at h
        obtain ⟨rfl, rfl⟩ := h
        right
        rw [bind_def] at h3
        split at h3
        next a1 c4 h5 => cases h3
        next e1 c4 h5 =>
          simp only [Prod.mk.injEq, Except.error.injEq] at h3
          obtain ⟨rfl, rfl⟩ := h3
          obtain ⟨e1, e2⟩ := execute_error h5
          refine ⟨rfl, e1, fun _ => ?_⟩
          rcases e2 with e2 | ⟨-, e2⟩
          · left; simp [e2]
          · right
            simp only [insertNonce] at e2
            split at e2
            next hany => exact List.any_eq_true.1 hany
            next => cases e2
      next => simp at h

theorem useNonce_err {D : Driver} {c : Clock} {f : Fault} {now : Nat} {u : Str} {t : Int} {s : Str}
    {cur cur' : Cur} {e : PyErr} (h : txnUseNonce D c f now u t s cur = (.error e, cur')) :
    (f cur.n).isSome = true ∨ (∃ k ∈ cur.db.nonces, sameNonce D.backend (u, t, s) k = true) := by
  unfold txnUseNonce at h
  split at h
  · simp [pure_def] at h
  · unfold Txn.except at h
    split at h
    · cases h
    next e' c2 h3 =>
      rw [bind_def] at h3
      split at h3
      next a1 c4 h5 => cases h3
      next e1 c4 h5 =>
        obtain ⟨-, e2⟩ := execute_error h5
        rcases e2 with e2 | ⟨-, e2⟩
        · left; simp [e2]
        · right
          simp only [insertNonce] at e2
          split at e2
          next hany => exact List.any_eq_true.1 hany
          next => cases e2

/-- the nonce table after a call -/
theorem step_nonces (D : Driver) (c : Clock) (db : Db) (e : Call) :
    (∃ u t s, e.op = .useNonce u t s ∧ (step D c db e).2 = .ok (.bool true) ∧
      c.within Nonce.SKEW e.now t ∧ (∀ k ∈ db.nonces, ¬ sameNonce D.backend (u, t, s) k = true) ∧
      (step D c db e).1.nonces = db.nonces ++ [(u, t, s)]) ∨
    ((∀ u t s, e.op = .useNonce u t s → (step D c db e).2 ≠ .ok (.bool true)) ∧
      ((step D c db e).1.nonces = db.nonces ∨
        (step D c db e).1.nonces = db.nonces.filter fun k => !decide (k.2.1 < c.seconds e.now - Nonce.SKEW))) := by
  unfold step
  match hc : call D c ⟨db, db⟩ e with
  | (.error err, conn') =>
    right
    rw [(call_error hc).1]
    exact ⟨fun _ _ _ _ => by simp, .inl rfl⟩
  | (.ok a, conn') =>
    rcases call_ok hc with ⟨cur, ht, rfl⟩ | ⟨-, ⟨u, t, s, hop⟩, rfl, hcm, -⟩
    · simp only
      generalize e.op = op at *
      cases op with
      | useNonce u t s =>
        simp only [txn, bind_ok, pure_def] at ht
        obtain ⟨b, c1, h1, h2⟩ := ht
        cases h2
        rcases useNonce_ok h1 with ⟨rfl, hw, hn, he⟩ | ⟨rfl, he, -⟩
        · left; exact ⟨u, t, s, rfl, rfl, hw, hn, by rw [he]⟩
        · right
          exact ⟨fun _ _ _ _ => by simp, .inl (by rw [he])⟩
      | storeAssociation u as =>
        right
        refine ⟨(by intros; contradiction), .inl ?_⟩
        simp only [txn, bind_ok, pure_def] at ht
        obtain ⟨x, c1, h1, h2⟩ := ht
        cases h2
        unfold txnStoreAssociation at h1
        split at h1
        · simp only [postgresSetAssoc, bind_ok, select_ok] at h1
          obtain ⟨rows, c1, ⟨-, rfl, rfl⟩, h1⟩ := h1
          split at h1
          · rw [execute_ok] at h1
            obtain ⟨-, db', k, hs, rfl⟩ := h1
            simp only [insertInto] at hs
            split at hs <;> cases hs
            rfl
          · rw [execute_ok] at h1
            obtain ⟨-, db', k, hs, rfl⟩ := h1
            cases hs; rfl
        · rw [execute_ok] at h1
          obtain ⟨-, db', k, hs, rfl⟩ := h1
          cases hs; rfl
      | getAssociation u handle =>
        right
        refine ⟨(by intros; contradiction), .inl ?_⟩
        simp only [txn, txnGetAssociation, bind_ok, pure_def, Txn.ofExcept] at ht
        obtain ⟨x, c1, ⟨rows, c2, h1, l, c3, h2, h3⟩, h4⟩ := ht
        cases h4
        simp only [Prod.mk.injEq] at h3
        obtain ⟨-, rfl⟩ := h3
        have e2 := (keepRows_ok h2).2
        have e1 : c2.db = db := by
          cases handle with
          | none => rw [(select_ok.1 h1).2.2]
          | some h => rw [(select_ok.1 h1).2.2]
        rw [e2, e1]
      | removeAssociation u handle =>
        right
        refine ⟨(by intros; contradiction), .inl ?_⟩
        simp only [txn, bind_ok, pure_def] at ht
        obtain ⟨x, c1, h1, h2⟩ := ht
        cases h2
        rw [(remove_ok h1).1]
      | cleanupNonces =>
        right
        refine ⟨(by intros; contradiction), .inr ?_⟩
        simp only [txn, txnCleanupNonces, bind_ok, pure_def, execute_ok, getRowcount] at ht
        obtain ⟨x, c1, ⟨_, c2, ⟨-, db, k, hs, rfl⟩, h3⟩, h2⟩ := ht
        cases h2; cases h3; cases hs
        rfl
      | cleanupAssociations =>
        right
        refine ⟨(by intros; contradiction), .inl ?_⟩
        simp only [txn, txnCleanupAssociations, bind_ok, pure_def, execute_ok, getRowcount] at ht
        obtain ⟨x, c1, ⟨_, c2, ⟨-, db, k, hs, rfl⟩, h3⟩, h2⟩ := ht
        cases h2; cases h3; cases hs
        rfl
    · right
      simp only [hcm]
      exact ⟨fun _ _ _ _ => by simp, .inl trivial⟩

/-! ## no faults -/

def noFault : Fault := fun _ => none

theorem execute_noFault (s : Db → Except PyErr (Db × Nat)) (c : Cur) (db : Db) (k : Nat) (h : s c.db = .ok (db, k)) :
    execute noFault s c = (.ok (), ⟨db, c.n + 1, k⟩) := by
  simp [execute, noFault, h]

theorem keepRows_noFault (s : Int) (u : Str) (rs : List Assoc) (c : Cur)
    (ht : ∀ r ∈ rs, allAssociationTypes.contains r.assocType = true) :
    ∃ l c', keepRows noFault s u rs c = (.ok l, c') := by
  induction rs generalizing c with
  | nil => exact ⟨[], c, rfl⟩
  | cons r rs ih =>
    have h1 : ∃ l c', keepRow noFault s u r c = (.ok l, c') := by
      unfold keepRow
      simp only [Assoc.new, ht r (by simp), if_true]
      split
      · exact ⟨[], _, rfl⟩
      · exact ⟨_, _, rfl⟩
    obtain ⟨l1, c1, h1⟩ := h1
    obtain ⟨l2, c2, h2⟩ := ih c1 fun r hr => ht r (by simp [hr])
    exact ⟨l1 ++ l2, c2, by simp [keepRows, bind_def, h1, h2, pure_def]⟩

theorem fetchRows_noFault (u : Str) (handle : Option Str) (c : Cur) :
    ∃ l c', fetchRows noFault u handle c = (.ok l, c') := by
  cases handle <;> exact ⟨_, _, rfl⟩

theorem mem_types (B : Backend) (db : Db) (hd : Inv B db) (u h : Str) (a : Assoc) (hv : view db u h = some a) :
    allAssociationTypes.contains a.assocType = true :=
  hd.types _ ((view_some_iff db hd.uniq u h a).1 hv).1

/-- a lookup without faults answers, or finds two associations issued at the same second -/
theorem get_noFault (B : Backend) (s : Int) (u : Str) (handle : Option Str) (c : Cur) (hd : Inv B c.db) :
    ∃ rows : List Assoc, ∃ c',
      (∀ a, a ∈ rows ↔ ∃ h, (handle = none ∨ handle = some h) ∧ view c.db u h = some a ∧ ¬ expired s a) ∧
      txnGetAssociation noFault s u handle c = (latest rows, c') := by
  obtain ⟨rows, c1, h1⟩ := fetchRows_noFault u handle c
  obtain ⟨rfl, hf⟩ := fetchRows_ok hd.uniq h1
  obtain ⟨l, c2, h2⟩ := keepRows_noFault s u rows { c with n := c.n + 1 } (by
    intro r hr
    obtain ⟨h, -, hv⟩ := (hf r).1 hr
    exact mem_types B c.db hd u h r hv)
  obtain ⟨rfl, -⟩ := keepRows_ok h2
  refine ⟨rows.filter fun r => decide (¬ expired s r), c2, ?_, ?_⟩
  rotate_left
  · simp only [txnGetAssociation, bind_def, h1, h2, Txn.ofExcept]
  · intro a
    rw [List.mem_filter, hf]
    simp only [decide_eq_true_eq]
    constructor
    · rintro ⟨⟨h, h1, h2⟩, h3⟩; exact ⟨h, h1, h2, h3⟩
    · rintro ⟨h, h1, h2, h3⟩; exact ⟨⟨h, h1, h2⟩, h3⟩

/-! ## a successful operation did all it does without faults -/

theorem execute_mono {f : Fault} {s : Db → Except PyErr (Db × Nat)} {c c' : Cur} {u : Unit}
    (h : execute f s c = (.ok u, c')) : execute noFault s c = (.ok u, c') := by
  rw [execute_ok] at h ⊢
  exact ⟨rfl, h.2⟩

theorem select_mono {f : Fault} {q : Db → List α} {c c' : Cur} {l : List α}
    (h : select f q c = (.ok l, c')) : select noFault q c = (.ok l, c') := by
  rw [select_ok] at h ⊢
  exact ⟨rfl, h.2⟩

theorem remove_mono {f : Fault} {u h : Str} {c c' : Cur} {b : Bool}
    (hh : txnRemoveAssociation f u h c = (.ok b, c')) : txnRemoveAssociation noFault u h c = (.ok b, c') := by
  unfold txnRemoveAssociation at *
  rw [bind_ok] at *
  obtain ⟨a, c1, h1, h2⟩ := hh
  exact ⟨a, c1, execute_mono h1, h2⟩

theorem keepRow_mono {f : Fault} {s : Int} {u : Str} {r : Assoc} {c c' : Cur} {l : List Assoc}
    (h : keepRow f s u r c = (.ok l, c')) : keepRow noFault s u r c = (.ok l, c') := by
  by_cases ht : allAssociationTypes.contains r.assocType = true
  · simp only [keepRow, Assoc.new, ht, if_true] at h ⊢
    split at h
    next he =>
      rw [if_pos he]
      rw [bind_ok] at h ⊢
      obtain ⟨a, c1, h1, h2⟩ := h
      exact ⟨a, c1, remove_mono h1, h2⟩
    next he => rw [if_neg he]; exact h
  · simp only [keepRow, Assoc.new, if_neg ht] at h
    simp [Txn.raise] at h

theorem keepRows_mono {f : Fault} {s : Int} {u : Str} {rs : List Assoc} {c c' : Cur} {l : List Assoc}
    (h : keepRows f s u rs c = (.ok l, c')) : keepRows noFault s u rs c = (.ok l, c') := by
  induction rs generalizing c l c' with
  | nil => exact h
  | cons r rs ih =>
    simp only [keepRows, bind_ok] at h ⊢
    obtain ⟨x, c1, h1, y, c2, h2, h3⟩ := h
    exact ⟨x, c1, keepRow_mono h1, y, c2, ih h2, h3⟩

theorem txn_mono {D : Driver} {c : Clock} {f : Fault} {now : Nat} {op : Op} {cur cur' : Cur} {a : Answer}
    (h : txn D c f now op cur = (.ok a, cur')) :
    txn D c noFault now op cur = (.ok a, cur') ∨
      ((∃ u t s, op = .useNonce u t s) ∧ a = .bool false ∧ cur'.db = cur.db) := by
  cases op with
  | storeAssociation u as =>
    left
    simp only [txn, bind_ok] at h ⊢
    obtain ⟨x, c1, h1, h2⟩ := h
    refine ⟨x, c1, ?_, h2⟩
    unfold txnStoreAssociation at *
    split at h1
    next hB =>
      rw [if_pos hB]
      simp only [postgresSetAssoc, bind_ok] at h1 ⊢
      obtain ⟨rows, c2, h3, h4⟩ := h1
      refine ⟨rows, c2, select_mono h3, ?_⟩
      split at h4
      next hl => rw [if_pos hl]; exact execute_mono h4
      next hl => rw [if_neg hl]; exact execute_mono h4
    next hB => rw [if_neg hB]; exact execute_mono h1
  | getAssociation u handle =>
    left
    simp only [txn, txnGetAssociation, bind_ok] at h ⊢
    obtain ⟨x, c1, ⟨rows, c2, h1, l, c3, h2, h3⟩, h4⟩ := h
    refine ⟨x, c1, ⟨rows, c2, ?_, l, c3, keepRows_mono h2, h3⟩, h4⟩
    cases handle with
    | none => exact select_mono h1
    | some h => exact select_mono h1
  | removeAssociation u handle =>
    left
    simp only [txn, bind_ok] at h ⊢
    obtain ⟨x, c1, h1, h2⟩ := h
    exact ⟨x, c1, remove_mono h1, h2⟩
  | useNonce u t s =>
    simp only [txn, bind_ok, pure_def] at h
    obtain ⟨b, c1, h1, h2⟩ := h
    cases h2
    rcases useNonce_ok h1 with ⟨rfl, hw, hn, he⟩ | ⟨rfl, he, -⟩
    · left
      simp only [txn, bind_ok, pure_def]
      refine ⟨true, cur', ?_, rfl⟩
      unfold txnUseNonce at h1 ⊢
      split at h1
      · cases h1
      next ho =>
        rw [if_neg ho]
        unfold Txn.except at h1 ⊢
        split at h1
        next b' c2 h3 =>
          rw [bind_ok] at h3
          obtain ⟨x, c3, h4, h5⟩ := h3
          rw [bind_def, execute_mono h4]
          simp only [h5]
          exact h1
        next =>
          split at h1
          · simp at h1
          · simp at h1
    · right; exact ⟨⟨u, t, s, rfl⟩, rfl, he⟩
  | cleanupNonces =>
    left
    simp only [txn, txnCleanupNonces, bind_ok] at h ⊢
    obtain ⟨x, c1, ⟨y, c2, h1, h2⟩, h3⟩ := h
    exact ⟨x, c1, ⟨y, c2, execute_mono h1, h2⟩, h3⟩
  | cleanupAssociations =>
    left
    simp only [txn, txnCleanupAssociations, bind_ok] at h ⊢
    obtain ⟨x, c1, ⟨y, c2, h1, h2⟩, h3⟩ := h
    exact ⟨x, c1, ⟨y, c2, execute_mono h1, h2⟩, h3⟩

/-! ## traces -/

theorem run_append (D : Driver) (c : Clock) (db : Db) (a b : List Call) :
    run D c db (a ++ b) =
      ((run D c db a).1 ++ (run D c (run D c db a).2 b).1, (run D c (run D c db a).2 b).2) := by
  induction a generalizing db with
  | nil => simp [run]
  | cons e r ih => simp [run, ih]

theorem run_snoc (D : Driver) (c : Clock) (db : Db) (a : List Call) (e : Call) :
    run D c db (a ++ [e]) =
      ((run D c db a).1 ++ [((e.now, e.op), (step D c (run D c db a).2 e).2)],
        (step D c (run D c db a).2 e).1) := by
  rw [run_append]; simp [run]

theorem snoc_ind {P : List Call → Prop} (nil : P []) (snoc : ∀ l e, P l → P (l ++ [e])) : ∀ l, P l := by
  intro l
  rw [← List.reverse_reverse l]
  generalize l.reverse = r
  induction r with
  | nil => exact nil
  | cons e r ih => rw [List.reverse_cons]; exact snoc _ _ ih

theorem run_table (D : Driver) (c : Clock) (calls : List Call) (hg : ∀ e ∈ calls, GoodCall D e) :
    Inv D.backend (run D c Db.empty calls).2 ∧
    view (run D c Db.empty calls).2 = tableRows c (run D c Db.empty calls).1 := by
  induction calls using snoc_ind with
  | nil => exact ⟨inv_empty _, rfl⟩
  | snoc l e ih =>
    obtain ⟨i1, i2⟩ := ih fun x hx => hg x (by simp [hx])
    rw [run_snoc]
    obtain ⟨j1, j2⟩ := step_table (c := c) i1 (hg e (by simp))
    refine ⟨j1, ?_⟩
    rw [j2, i2]
    simp [tableRows, List.foldl_append]

/-- what cleanups and lookups drop is expired, now and for ever after -/
theorem alive_tableRows (c : Clock) (tr : Trace) (now : Nat) (hn : ∀ x ∈ tr, x.1.1 ≤ now) :
    alive c now (tableRows c tr) = alive c now (lastStored tr) := by
  have key : ∀ (tr : Trace) (m m' : AssocMap), (∀ x ∈ tr, x.1.1 ≤ now) → alive c now m = alive c now m' →
      alive c now (tr.foldl (tableStep c) m) = alive c now (tr.foldl lastStep m') := by
    intro tr
    induction tr with
    | nil => intro m m' _ h; exact h
    | cons x tr ih =>
      intro m m' hx h
      simp only [List.foldl_cons]
      refine ih _ _ (fun y hy => hx y (by simp [hy])) ?_
      have hx0 := hx x (by simp)
      have hmono : c.seconds x.1.1 ≤ c.seconds now := by
        unfold Clock.seconds
        exact_mod_cast Nat.div_le_div_right hx0
      obtain ⟨⟨t, op⟩, o⟩ := x
      simp only at hmono
      have hpt : ∀ u h, (m u h).filter (fun a => decide (¬ expired (c.seconds now) a)) =
          (m' u h).filter fun a => decide (¬ expired (c.seconds now) a) := fun u h' => congrFun (congrFun h u) h'
      funext u h'
      have hp := hpt u h'
      cases o with
      | error e =>
        cases op <;> exact hp
      | ok a =>
        cases op with
        | storeAssociation url as =>
          simp only [alive, tableStep, lastStep]
          split
          · rfl
          · exact hp
        | getAssociation url handle =>
          simp only [alive, tableStep, lastStep]
          rw [← hp]
          split
          · rw [Option.filter_filter]
            congr 1
            funext b
            rw [Bool.eq_iff_iff]
            simp only [Bool.and_eq_true, decide_eq_true_eq]; unfold expired
            omega
          · rfl
        | removeAssociation url handle =>
          simp only [alive, tableStep, lastStep]
          split
          · rfl
          · exact hp
        | useNonce => exact hp
        | cleanupNonces => exact hp
        | cleanupAssociations =>
          simp only [alive, tableStep, lastStep]
          rw [← hp, Option.filter_filter]
          congr 1
          funext b
          rw [Bool.eq_iff_iff]
          simp only [Bool.and_eq_true, decide_eq_true_eq]; unfold expired
          omega
  exact key tr _ _ hn rfl

theorem takenIn_snoc (tr : Trace) (x : Event × Outcome) (u : Str) (t : Int) (s : Str) :
    TakenIn (tr ++ [x]) u t s ↔ TakenIn tr u t s ∨ (x.1.2 = .useNonce u t s ∧ x.2 = .ok (.bool true)) := by
  unfold TakenIn
  simp only [List.mem_append, List.mem_singleton]
  constructor
  · rintro ⟨now, h | h⟩
    · exact .inl ⟨now, h⟩
    · right; rw [← h]; exact ⟨rfl, rfl⟩
  · rintro (⟨now, h⟩ | ⟨h1, h2⟩)
    · exact ⟨now, .inl h⟩
    · obtain ⟨⟨now, op⟩, o⟩ := x
      simp only at h1 h2
      subst h1 h2
      exact ⟨now, .inr rfl⟩

theorem run_nonces (D : Driver) (c : Clock) (calls : List Call) (u : Str) (t : Int) (s : Str) :
    ((u, t, s) ∈ (run D c Db.empty calls).2.nonces → TakenIn (run D c Db.empty calls).1 u t s) ∧
    (TakenIn (run D c Db.empty calls).1 u t s → (u, t, s) ∈ (run D c Db.empty calls).2.nonces ∨
      ∃ x ∈ (run D c Db.empty calls).1, t < c.seconds x.1.1 - Nonce.SKEW) := by
  induction calls using snoc_ind with
  | nil => simp [run, Db.empty, TakenIn]
  | snoc l e ih =>
    obtain ⟨i1, i2⟩ := ih
    rw [run_snoc]
    simp only
    rw [takenIn_snoc]
    rcases step_nonces D c (run D c Db.empty l).2 e with ⟨u', t', s', hop, hr, -, -, hn⟩ | ⟨hno, hn⟩
    · rw [hn]
      refine ⟨fun h => ?_, fun h => ?_⟩
      · rcases List.mem_append.1 h with h | h
        · exact .inl (i1 h)
        · rw [List.mem_singleton] at h
          cases h
          exact .inr ⟨hop, hr⟩
      · rcases h with h | ⟨h1, -⟩
        · rcases i2 h with h | ⟨x, hx, hl⟩
          · exact .inl (List.mem_append_left _ h)
          · exact .inr ⟨x, List.mem_append_left _ hx, hl⟩
        · simp only [hop, Op.useNonce.injEq] at h1
          obtain ⟨rfl, rfl, rfl⟩ := h1
          exact .inl (by simp)
    · have hno' : ¬ (e.op = .useNonce u t s ∧ (step D c (run D c Db.empty l).2 e).2 = .ok (.bool true)) :=
        fun h => hno _ _ _ h.1 h.2
      rw [or_iff_left hno']
      rcases hn with hn | hn
      · rw [hn]
        refine ⟨i1, fun h => ?_⟩
        rcases i2 h with h | ⟨x, hx, hl⟩
        · exact .inl h
        · exact .inr ⟨x, List.mem_append_left _ hx, hl⟩
      · rw [hn]
        refine ⟨fun h => i1 (List.mem_filter.1 h).1, fun h => ?_⟩
        rcases i2 h with h | ⟨x, hx, hl⟩
        · by_cases hlt : t < c.seconds e.now - Nonce.SKEW
          · exact .inr ⟨_, List.mem_append_right _ (List.mem_singleton.2 rfl), hlt⟩
          · exact .inl (List.mem_filter.2 ⟨h, by simpa using hlt⟩)
        · exact .inr ⟨x, List.mem_append_left _ hx, hl⟩

end SqlStore
