import Verif.Lemmas.SqlConc
/-! # One client of an SQL store alone: the statements one by one do what `Model/SqlStore` says -/

namespace SqlConc
open Py Association Store SqlStore SqlRows Spec

/-- a client alone, to the end of its program, when nothing fails and time stands still -/
def alone (D : Driver) (now i : Nat) : Prog α → Tables → Option (Except PyErr α × Tables)
  | .done r, db => some (r, db)
  | .time k, db => alone D now i (k now) db
  | .query q k, db => alone D now i (k (.ok (q.find i db))) db
  | .exec s k, db => (s.perform D i db).bind fun x => alone D now i (k x.1) x.2
  | .rollback k, db => alone D now i (k (.ok ())) (db.rollback i)
  | .commit k, db => alone D now i (k (.ok ())) (db.commit i)

theorem alone_next (D : Driver) (now i : Nat) (p : Prog α) (f : Except PyErr α → Prog β) (db : Tables) :
    alone D now i (p.next f) db = (alone D now i p db).bind fun x => alone D now i (f x.1) x.2 := by
  induction p generalizing db with
  | done r => rfl
  | time k ih => exact ih _ _
  | query q k ih => exact ih _ _
  | exec s k ih =>
    simp only [Prog.next, alone]
    cases s.perform D i db with
    | none => rfl
    | some x => exact ih _ _
  | rollback k ih => exact ih _ _
  | commit k ih => exact ih _ _

theorem put_put (cfg : Config) (i : Nat) (x y : Option Client) (db : Tables) :
    ({ cfg.put i x with db := db } : Config).put i y = { cfg.put i y with db := db } := by
  simp only [Config.put, Config.mk.injEq, and_self, true_and, and_true]
  funext j
  split <;> rfl

theorem put_put' (cfg : Config) (i : Nat) (x y : Option Client) : (cfg.put i x).put i y = cfg.put i y := by
  simp only [Config.put, Config.mk.injEq, and_self, true_and, and_true]
  funext j
  split <;> rfl

theorem put_self (cfg : Config) (i : Nat) (x : Option Client) : (cfg.put i x).clients i = x := by
  simp [Config.put]

/-- it is one way for the system to go -/
theorem alone_reachable {D : Driver} {c : Clock} {cfg : Config} {i : Nat} {op : Op} {s : Nat} {p : Prog Answer}
    {r : Outcome} {db : Tables} (h : Reachable D c (fun _ _ => True) cfg) (hi : cfg.clients i = some ⟨op, s, p⟩)
    (ha : alone D cfg.clock i p cfg.db = some (r, db)) :
    Reachable D c (fun _ _ => True) { cfg.put i (some ⟨op, s, .done r⟩) with db := db } := by
  induction p generalizing cfg with
  | done x =>
    simp only [alone, Option.some.injEq, Prod.mk.injEq] at ha
    obtain ⟨rfl, rfl⟩ := ha
    have : ({ cfg.put i (some ⟨op, s, .done x⟩) with db := cfg.db } : Config) = cfg := by
      obtain ⟨db, t, cl, st, ret⟩ := cfg
      simp only [Config.put, Config.mk.injEq, true_and, and_true]
      funext j
      split
      · next hj => rw [hj, ← hi]
      · rfl
    rw [this]
    exact h
  | time k ih =>
    have := ih cfg.clock (h.step (.time cfg i op s k hi)) (put_self ..) ha
    rwa [put_put'] at this
  | query q k ih =>
    have := ih _ (h.step (.query cfg i op s q k hi)) (put_self ..) ha
    rwa [put_put'] at this
  | exec st k ih =>
    simp only [alone, Option.bind_eq_some_iff] at ha
    obtain ⟨⟨x, db1⟩, hx, ha⟩ := ha
    have := ih _ (h.step (.exec cfg i op s st k x db1 hi trivial hx)) (put_self ..) ha
    rwa [put_put] at this
  | rollback k ih =>
    have := ih _ (h.step (.rollback cfg i op s k hi)) (put_self ..) ha
    rwa [put_put] at this
  | commit k ih =>
    have := ih _ (h.step (.commit cfg i op s k hi)) (put_self ..) ha
    rwa [put_put] at this

/-! ## Rows seen by a transaction alone -/

theorem filterMap_ext {f g : α → Option β} {l : List α} (h : ∀ x ∈ l, f x = g x) :
    l.filterMap f = l.filterMap g := by
  induction l with
  | nil => rfl
  | cons a r ih =>
    rw [List.filterMap_cons, List.filterMap_cons, h a (List.mem_cons_self ..),
      ih fun x hx => h x (List.mem_cons_of_mem _ hx)]

/-- committed rows nobody has touched -/
def settled (rows : List α) : List (Entry α) := rows.map fun r => ⟨r, none, none⟩

/-- transaction `i`, the only one open, began with the rows `orig` and sees `rows` -/
structure Sees (i : Nat) (orig : List α) (l : List (Entry α)) (rows : List α) : Prop where
  own : ∀ e ∈ l, (e.ins = none ∨ e.ins = some i) ∧ (e.del = none ∨ (e.del = some i ∧ e.ins = none))
  rows : rows = (l.filter fun e => e.seen i).map (·.row)
  back : SqlRows.rollback i l = settled orig

variable {α : Type} {i : Nat} {orig rows : List α} {l : List (Entry α)}

theorem sees_settled (i : Nat) (rows : List α) : Sees i rows (settled rows) rows := by
  refine ⟨?_, ?_, ?_⟩
  · intro e he
    obtain ⟨r, -, rfl⟩ := List.mem_map.1 he
    exact ⟨.inl rfl, .inl rfl⟩
  · induction rows with
    | nil => rfl
    | cons r rs ih =>
      simp only [settled, List.map_cons]
      rw [List.filter_cons_of_pos (by rfl), List.map_cons]
      exact congrArg _ ih
  · induction rows with
    | nil => rfl
    | cons r rs ih =>
      simp only [SqlRows.rollback, settled, List.map_cons, List.filterMap_cons] at ih ⊢
      exact congrArg _ ih

theorem Sees.not_held (h : Sees i orig l rows) {e : Entry α} (he : e ∈ l) : e.held i = false := by
  rw [SqlRows.not_held]
  have := h.own e he
  exact ⟨this.1, this.2.imp id And.left⟩

theorem Sees.select (h : Sees i orig l rows) (p : α → Bool) : SqlRows.select i p l = rows.filter p := by
  rw [h.rows, List.filter_map, List.filter_filter]
  simp only [SqlRows.select, Function.comp_def, Bool.and_comm]

theorem Sees.drop (h : Sees i orig l rows) (p : α → Bool) : Sees i orig (drop i p l) (rows.filter fun r => !p r) := by
  refine ⟨?_, ?_, ?_⟩
  · intro e' he'
    obtain ⟨e, he, ⟨h1, h2, rfl⟩ | ⟨-, rfl⟩⟩ := drop_mem.1 he'
    · have := (h.own e he).1.resolve_right h2
      exact ⟨.inl this, .inr ⟨rfl, this⟩⟩
    · exact h.own _ he
  · rw [h.rows, List.filter_map, List.filter_filter]
    clear h
    induction l with
    | nil => rfl
    | cons e r ih =>
      simp only [SqlRows.drop, List.filterMap_cons] at ih ⊢
      cases hs : e.seen i with
      | false =>
        rw [List.filter_cons_of_neg (by simp [hs])]
        simp only [Bool.false_and, Bool.false_eq_true, ↓reduceIte]
        rw [List.filter_cons_of_neg (by simp [hs])]
        exact ih
      | true =>
        cases hp : p e.row with
        | true =>
          rw [List.filter_cons_of_neg (by simp [hp])]
          simp only [Bool.and_self, ↓reduceIte]
          cases hi : e.ins == some i with
          | true => simpa using ih
          | false =>
            simp only [Bool.false_eq_true, ↓reduceIte]
            rw [List.filter_cons_of_neg (by simp [Entry.seen])]
            exact ih
        | false =>
          rw [List.filter_cons_of_pos (by simp [hs, hp])]
          simp only [Bool.and_false, Bool.false_eq_true, ↓reduceIte]
          rw [List.filter_cons_of_pos (by simp [hs]), List.map_cons, List.map_cons]
          exact congrArg _ ih
  · rw [← h.back]
    simp only [SqlRows.rollback, SqlRows.drop, List.filterMap_filterMap]
    apply filterMap_ext
    intro e he
    have ho := h.own e he
    split
    · next hs =>
      rw [Bool.and_eq_true, seen_iff] at hs
      cases hi : e.ins == some i with
      | true => simp
      | false =>
        have hd : e.del = none := ho.2.resolve_right fun x => hs.1.2 x.1
        simp only [Bool.false_eq_true, ↓reduceIte, Option.bind_some, hi, beq_self_eq_true, hd]
        simp [← hd]
    · rfl

theorem Sees.delete (h : Sees i orig l rows) (p : α → Bool) :
    SqlRows.delete i p l = some (SqlRows.drop i p l, (rows.filter p).length) := by
  unfold SqlRows.delete
  rw [if_neg, h.select]
  simp only [List.any_eq_true, not_exists, not_and, Bool.not_eq_true]
  intro e he
  rw [h.not_held he, Bool.and_false]

theorem Sees.append (h : Sees i orig l rows) (x : α) : Sees i orig (l ++ [⟨x, some i, none⟩]) (rows ++ [x]) := by
  refine ⟨?_, ?_, ?_⟩
  · intro e he
    rcases List.mem_append.1 he with he | he
    · exact h.own e he
    · obtain rfl := List.mem_singleton.1 he
      exact ⟨.inr rfl, .inl rfl⟩
  · rw [List.filter_append, List.map_append, ← h.rows]
    congr 1
    rw [List.filter_cons_of_pos (by simp [Entry.seen])]
    rfl
  · rw [← h.back]
    simp [SqlRows.rollback, List.filterMap_append]

theorem Sees.any (h : Sees i orig l rows) (p : α → Bool) : (l.any fun e => p e.row && e.seen i) = rows.any p := by
  rw [h.rows, List.any_map, List.any_filter]
  simp only [Function.comp_def, Bool.and_comm]

theorem Sees.free (h : Sees i orig l rows) (p : α → Bool) : ¬ (l.any fun e => p e.row && e.held i) = true := by
  simp only [List.any_eq_true, not_exists, not_and, Bool.not_eq_true]
  intro e he
  rw [h.not_held he, Bool.and_false]

theorem Sees.update (h : Sees i orig l rows) (p : α → Bool) (f : α → α) :
    ∃ l', SqlRows.update i p f l = some (l', (rows.filter p).length) ∧
      Sees i orig l' (rows.map fun r => if p r then f r else r) := by
  unfold SqlRows.update
  rw [if_neg, h.select]
  rotate_left
  · simp only [List.any_eq_true, not_exists, not_and, Bool.not_eq_true]
    intro e he
    rw [h.not_held he, Bool.and_false]
  refine ⟨_, rfl, ?_, ?_, ?_⟩
  · intro e' he'
    obtain ⟨e, he, he'⟩ := List.mem_flatMap.1 he'
    have ho := h.own e he
    split at he'
    · next hs =>
      rw [Bool.and_eq_true, seen_iff] at hs
      split at he'
      · obtain rfl := List.mem_singleton.1 he'
        exact ho
      · next hi =>
        have h1 := ho.1.resolve_right (by simpa using hi)
        rcases (by simpa using he' : e' = _ ∨ e' = _) with rfl | rfl
        · exact ⟨.inl h1, .inr ⟨rfl, h1⟩⟩
        · exact ⟨.inr rfl, .inl rfl⟩
    · obtain rfl := List.mem_singleton.1 he'
      exact ho
  · rw [h.rows, List.map_map]
    clear h
    induction l with
    | nil => rfl
    | cons e r ih =>
      rw [List.flatMap_cons, List.filter_append, List.map_append, ← ih]
      cases hs : e.seen i with
      | false =>
        rw [List.filter_cons_of_neg (by simp [hs])]
        simp only [Bool.false_and, Bool.false_eq_true, ↓reduceIte]
        rw [List.filter_cons_of_neg (by simp [hs])]
        rfl
      | true =>
        rw [List.filter_cons_of_pos (by simp [hs]), List.map_cons]
        cases hp : p e.row with
        | true =>
          simp only [Bool.and_self, ↓reduceIte, Function.comp_def, hp]
          cases hi : e.ins == some i with
          | true =>
            simp only [↓reduceIte]
            rw [List.filter_cons_of_pos (by simpa [Entry.seen] using hs)]
            rfl
          | false =>
            simp only [Bool.false_eq_true, ↓reduceIte]
            rw [List.filter_cons_of_neg (by simp [Entry.seen]), List.filter_cons_of_pos (by simp [Entry.seen])]
            rfl
        | false =>
          simp only [Bool.and_false, Bool.false_eq_true, ↓reduceIte, Function.comp_def, hp]
          rw [List.filter_cons_of_pos (by simp [hs])]
          rfl
  · rw [← h.back]
    have hown := h.own
    clear h
    induction l with
    | nil => rfl
    | cons e r ih =>
      have ho := hown e (List.mem_cons_self ..)
      have ih := ih fun x hx => hown x (List.mem_cons_of_mem _ hx)
      simp only [SqlRows.rollback] at ih ⊢
      rw [List.flatMap_cons, List.filterMap_append, ih]
      show _ = List.filterMap _ ([e] ++ r)
      rw [List.filterMap_append]
      congr 1
      split
      · next hs =>
        rw [Bool.and_eq_true, seen_iff] at hs
        cases hi : e.ins == some i with
        | true => simp [eq_of_beq hi]
        | false =>
          have hd : e.del = none := ho.2.resolve_right fun x => hs.1.2 x.1
          simp only [Bool.false_eq_true, ↓reduceIte, List.filterMap_cons, hi, beq_self_eq_true, hd, List.filterMap_nil]
          simp [← hd]
      · rfl

theorem Sees.commit (h : Sees i orig l rows) : SqlRows.commit i l = settled rows := by
  have hown := h.own
  have hrows := h.rows
  clear h
  subst hrows
  induction l with
  | nil => rfl
  | cons e r ih =>
    have ho := hown e (List.mem_cons_self ..)
    have ih := ih fun x hx => hown x (List.mem_cons_of_mem _ hx)
    simp only [SqlRows.commit, List.filterMap_cons] at ih ⊢
    cases hd : e.del == some i with
    | true =>
      rw [List.filter_cons_of_neg (by simp [Entry.seen, eq_of_beq hd])]
      simpa using ih
    | false =>
      have hd' : e.del ≠ some i := by simpa using hd
      have hn : e.del = none := ho.2.resolve_right fun x => hd' x.1
      rw [List.filter_cons_of_pos (by simpa using seen_iff.2 ⟨ho.1, hd'⟩)]
      simp only [settled, List.map_cons]
      rcases ho.1 with h1 | h1
      · simp only [h1, Bool.false_eq_true, ↓reduceIte]
        refine List.cons_eq_cons.2 ⟨?_, ih⟩
        obtain ⟨r, _, _⟩ := e
        simp_all
      · simp only [h1, Bool.false_eq_true, ↓reduceIte, beq_self_eq_true]
        refine List.cons_eq_cons.2 ⟨?_, ih⟩
        obtain ⟨r, _, _⟩ := e
        simp_all

/-! ## Operations -/

/-- both tables -/
structure View (i : Nat) (orig : Db) (t : Tables) (db : Db) : Prop where
  assocs : Sees i orig.assocs t.assocs db.assocs
  nonces : Sees i orig.nonces t.nonces db.nonces

/-- the statement on a database of plain rows -/
def Stmt.plain (D : Driver) : Stmt → Db → Except PyErr (Db × Nat)
  | .replaceAssoc u a => replaceInto D.backend u a
  | .insertAssoc u a => insertInto D.backend u a
  | .updateAssoc u a => updateRow u a
  | .removeAssoc u h => deleteRows (isRow u h)
  | .cleanAssocs s => deleteRows fun r => decide (r.2.issued + r.2.lifetime < s)
  | .addNonce k => insertNonce D k
  | .cleanNonces limit => SqlStore.cleanNonces limit

theorem insert_eq {l : List (Entry α)} {p : α → Bool} {x : α} (h : Sees i orig l rows) :
    SqlRows.insert i p x l = if rows.any p then some (l, false) else some (l ++ [⟨x, some i, none⟩], true) := by
  unfold SqlRows.insert
  rw [if_neg (h.free p), h.any]

theorem view_perform {D : Driver} {i : Nat} {orig : Db} {t : Tables} {db : Db} (h : View i orig t db) (s : Stmt) :
    match s.plain D db with
    | .ok (db', n) => ∃ t', s.perform D i t = some (.ok n, t') ∧ View i orig t' db'
    | .error e => ∃ t', s.perform D i t = some (.error e, t') ∧ View i orig t' db := by
  cases s with
  | replaceAssoc u a =>
    refine ⟨⟨SqlRows.drop i (sameKey D.backend u a.handle) t.assocs ++ [⟨(u, a), some i, none⟩], t.nonces⟩, ?_,
      (h.assocs.drop _).append _, h.nonces⟩
    simp only [Stmt.perform, SqlRows.replace]
    rw [if_neg (h.assocs.free _)]
    rfl
  | insertAssoc u a =>
    simp only [Stmt.plain, insertInto]
    split
    · next h1 =>
      split at h1
      · cases h1
      · next h2 =>
        cases h1
        refine ⟨⟨t.assocs ++ [⟨(u, a), some i, none⟩], t.nonces⟩, ?_, h.assocs.append (u, a), h.nonces⟩
        simp [Stmt.perform, insert_eq h.assocs, h2]
    · next h1 =>
      split at h1
      · next h2 =>
        cases h1
        refine ⟨t, ?_, h⟩
        simp only [Stmt.perform, insert_eq h.assocs, h2]
        rfl
      · cases h1
  | updateAssoc u a =>
    obtain ⟨l', h1, h2⟩ := h.assocs.update (isRow u a.handle) (fun r => (r.1, { a with handle := r.2.handle }))
    refine ⟨⟨l', t.nonces⟩, ?_, h2, h.nonces⟩
    simp only [Stmt.perform, h1]
    rfl
  | removeAssoc u hd =>
    refine ⟨⟨_, t.nonces⟩, ?_, h.assocs.drop (isRow u hd), h.nonces⟩
    simp only [Stmt.perform, h.assocs.delete]
    rfl
  | cleanAssocs s =>
    refine ⟨⟨_, t.nonces⟩, ?_, h.assocs.drop (fun r => decide (r.2.issued + r.2.lifetime < s)), h.nonces⟩
    simp only [Stmt.perform, h.assocs.delete]
    rfl
  | addNonce k =>
    simp only [Stmt.plain, insertNonce]
    split
    · next h1 =>
      split at h1
      · cases h1
      · next h2 =>
        cases h1
        refine ⟨⟨t.assocs, t.nonces ++ [⟨k, some i, none⟩]⟩, ?_, h.assocs, h.nonces.append k⟩
        simp [Stmt.perform, insert_eq h.nonces, h2]
    · next h1 =>
      split at h1
      · next h2 =>
        cases h1
        refine ⟨t, ?_, h⟩
        simp only [Stmt.perform, insert_eq h.nonces, h2]
        rfl
      · cases h1
  | cleanNonces limit =>
    refine ⟨⟨t.assocs, SqlRows.drop i (fun k => decide (k.2.1 < limit)) t.nonces⟩, ?_, h.assocs,
      h.nonces.drop (fun k => decide (k.2.1 < limit))⟩
    simp only [Stmt.perform, h.nonces.delete]
    rfl

/-- no statement fails by itself -/
def noFaults : Fault := fun _ => none

/-- the program does what the transaction does -/
def Sim (D : Driver) (now i : Nat) (orig : Db) (x : Txn β) (p : Prog β) : Prop :=
  ∀ cur t, View i orig t cur.db → ∃ t', alone D now i p t = some ((x cur).1, t') ∧ View i orig t' (x cur).2.db

variable {D : Driver} {now : Nat} {orig : Db}

theorem sim_done (r : Except PyErr β) : Sim D now i orig (Txn.ofExcept r) (.done r) :=
  fun _ t h => ⟨t, rfl, h⟩

theorem sim_pure (a : β) : Sim D now i orig (pure a) (pure a) := fun _ t h => ⟨t, rfl, h⟩

theorem sim_bind {x : Txn β} {p : Prog β} {f : β → Txn γ} {g : β → Prog γ} (h : Sim D now i orig x p)
    (hf : ∀ a, Sim D now i orig (f a) (g a)) : Sim D now i orig (x >>= f) (p >>= g) := by
  intro cur t hv
  obtain ⟨t1, h1, h2⟩ := h cur t hv
  have e : alone D now i (p >>= g) t = (alone D now i p t).bind fun y =>
      alone D now i (match y.1 with
        | .ok a => g a
        | .error e => .done (.error e)) y.2 := alone_next ..
  rw [e, h1, bind_def]
  generalize x cur = y at *
  obtain ⟨r, cur'⟩ := y
  cases r with
  | ok a => exact hf a cur' t1 h2
  | error err => exact ⟨t1, rfl, h2⟩

theorem sim_run (s : Stmt) : Sim D now i orig (execute noFaults (s.plain D) >>= fun _ => getRowcount) (run s) := by
  intro cur t hv
  have := view_perform (D := D) hv s
  simp only [bind_def, execute, noFaults]
  split at this
  · next db' n h1 =>
    obtain ⟨t', h2, h3⟩ := this
    rw [h1]
    exact ⟨t', by simp only [run, alone, h2]; rfl, h3⟩
  · next e h1 =>
    obtain ⟨t', h2, h3⟩ := this
    rw [h1]
    exact ⟨t', by simp only [run, alone, h2]; rfl, h3⟩

theorem sim_exec (s : Stmt) :
    Sim D now i orig (execute noFaults (s.plain D)) (run s >>= fun _ => pure ()) := by
  intro cur t hv
  obtain ⟨t', h1, h2⟩ := sim_bind (sim_run s) (fun _ => sim_pure ()) cur t hv
  refine ⟨t', ?_, ?_⟩
  · rw [h1]
    simp only [bind_def]
    generalize execute noFaults (s.plain D) cur = y
    obtain ⟨r, cur'⟩ := y
    cases r <;> rfl
  · have : ((execute noFaults (s.plain D) >>= fun _ => getRowcount) >>= fun _ => pure () : Txn Unit) cur =
        execute noFaults (s.plain D) cur := by
      simp only [bind_def]
      generalize execute noFaults (s.plain D) cur = y
      obtain ⟨r, cur'⟩ := y
      cases r <;> rfl
    rw [this] at h2
    exact h2

theorem find_eq {t : Tables} {db : Db} (h : View i orig t db) (u : Str) (hd : Option Str) :
    (Query.mk u hd).find i t = match hd with
      | some x => selectOne u x db
      | none => selectAll u db := by
  simp only [Query.find, h.assocs.select]
  cases hd <;> rfl

theorem sim_query (u : Str) (hd : Option Str) :
    Sim D now i orig (fetchRows noFaults u hd) (Prog.query ⟨u, hd⟩ .done) := by
  intro cur t hv
  refine ⟨t, ?_, ?_⟩
  · simp only [alone, find_eq hv]
    cases hd <;> rfl
  · cases hd <;> exact hv

theorem sim_remove (u h : Str) : Sim D now i orig (txnRemoveAssociation noFaults u h) (removeAssociation u h) := by
  intro cur t hv
  obtain ⟨t', h1, h2⟩ := sim_bind (sim_run (D := D) (now := now) (.removeAssoc u h))
    (fun k => sim_pure (decide (0 < k))) cur t hv
  exact ⟨t', h1, h2⟩

theorem sim_keepRow (c : Clock) (u : Str) (row : Assoc) :
    Sim D now i orig (SqlStore.keepRow noFaults (c.seconds now) u row) (keepRow c u row) := by
  unfold SqlStore.keepRow keepRow
  cases Assoc.new row.handle row.secret row.issued row.lifetime row.assocType with
  | error e => exact sim_done (.error e)
  | ok a =>
    have : Sim D now i orig
        (if a.getExpiresIn (c.seconds now) == 0 then txnRemoveAssociation noFaults u a.handle >>= fun _ => pure []
          else pure [a] : Txn (List Assoc))
        (if a.getExpiresIn (c.seconds now) == 0 then removeAssociation u a.handle >>= fun _ => pure []
          else pure [a] : Prog (List Assoc)) := by
      split
      · exact sim_bind (sim_remove u a.handle) (fun _ => sim_pure [])
      · exact sim_pure [a]
    exact this

theorem sim_keepRows (c : Clock) (u : Str) (rows : List Assoc) :
    Sim D now i orig (SqlStore.keepRows noFaults (c.seconds now) u rows) (keepRows c u rows) := by
  induction rows with
  | nil => exact sim_pure []
  | cons r rs ih => exact sim_bind (sim_keepRow c u r) fun x => sim_bind ih fun y => sim_pure _

theorem sim_body (c : Clock) (op : Op) : Sim D now i orig (txn D c noFaults now op) (body D c op) := by
  cases op with
  | storeAssociation u a =>
    refine sim_bind ?_ fun _ => sim_pure _
    unfold txnStoreAssociation storeAssociation
    split
    · next hb =>
      refine sim_bind (x := SqlStore.select noFaults (selectOne u a.handle)) (sim_query u (some a.handle)) fun rows => ?_
      have hins : Sim D now i orig (execute noFaults (insertInto .postgres u a))
          (run (.insertAssoc u a) >>= fun _ => pure ()) := by
        have := sim_exec (D := D) (now := now) (i := i) (orig := orig) (.insertAssoc u a)
        simp only [Stmt.plain, hb] at this
        exact this
      split
      · exact hins
      · exact sim_exec (.updateAssoc u a)
    · exact sim_exec (.replaceAssoc u a)
  | getAssociation u h =>
    exact sim_bind (sim_bind (sim_query u h) fun rows => sim_bind (sim_keepRows c u rows) fun l => sim_done _)
      fun _ => sim_pure _
  | removeAssociation u h => exact sim_bind (sim_remove u h) fun _ => sim_pure _
  | useNonce u t s =>
    refine sim_bind ?_ fun _ => sim_pure _
    intro cur tb hv
    simp only [useNonce, alone, txnUseNonce]
    split
    · exact sim_pure false cur tb hv
    · have := view_perform (D := D) hv (.addNonce (u, t, s))
      simp only [Txn.except, bind_def, execute, noFaults]
      simp only [Stmt.plain] at this
      split at this
      · next db' n h1 =>
        obtain ⟨t', h2, h3⟩ := this
        simp only [h1, alone, h2]
        exact ⟨t', rfl, h3⟩
      · next e h1 =>
        obtain ⟨t', h2, h3⟩ := this
        simp only [h1, alone, h2]
        by_cases he : e = .integrityError
        · subst he
          exact ⟨t', rfl, h3⟩
        · refine ⟨t', ?_, ?_⟩
          · simp [he, alone]
          · simpa [he] using h3
  | cleanupNonces =>
    refine sim_bind ?_ fun _ => sim_pure _
    exact sim_run (.cleanNonces (c.seconds now - Nonce.SKEW))
  | cleanupAssociations =>
    refine sim_bind ?_ fun _ => sim_pure _
    exact sim_run (.cleanAssocs (c.seconds now))

/-- a database in which no transaction is open -/
def Tables.of (db : Db) : Tables := ⟨settled db.assocs, settled db.nonces⟩

theorem alone_program (c : Clock) (db : Db) (op : Op) :
    alone D now i (program D c op) (Tables.of db) =
      some ((SqlStore.step D c db ⟨now, op, noFaults, none⟩).2,
        Tables.of (SqlStore.step D c db ⟨now, op, noFaults, none⟩).1) := by
  have hv : View i db ((Tables.of db).rollback i) db := by
    have : (Tables.of db).rollback i = Tables.of db := by
      simp only [Tables.rollback, Tables.of]
      rw [(sees_settled i db.assocs).back, (sees_settled i db.nonces).back]
    rw [this]
    exact ⟨sees_settled i db.assocs, sees_settled i db.nonces⟩
  obtain ⟨t', h1, h2⟩ := sim_body (D := D) (now := now) c op ⟨db, 0, 0⟩ _ hv
  have e1 : alone D now i (callInTransaction (body D c op)) (Tables.of db) =
      some ((SqlStore.callInTransaction (txn D c noFaults now op) none ⟨db, db⟩).1,
        Tables.of (SqlStore.callInTransaction (txn D c noFaults now op) none ⟨db, db⟩).2.committed) := by
    simp only [callInTransaction, alone, alone_next, h1, Option.bind_some, SqlStore.callInTransaction, Conn.rollback]
    generalize txn D c noFaults now op ⟨db, 0, 0⟩ = y at *
    obtain ⟨r, cur⟩ := y
    cases r with
    | error e =>
      simp only [atEnd, alone, Tables.rollback, h2.assocs.back, h2.nonces.back]
      rfl
    | ok a =>
      simp only [atEnd, alone, Tables.commit, h2.assocs.commit, h2.nonces.commit]
      rfl
  simp only [program, alone_next, e1, Option.bind_some, alone, SqlStore.step, SqlStore.call, Option.some.injEq, Prod.mk.injEq]
  generalize SqlStore.callInTransaction (txn D c noFaults now op) none ⟨db, db⟩ = y
  obtain ⟨r, conn⟩ := y
  have e2 : sqliteCatch D.backend op (r, conn) = (caught D.backend op r, conn) := by
    unfold caught
    split
    · simp only [sqliteCatch]
      split <;> rfl
    · next h =>
      unfold sqliteCatch
      split
      · next heq =>
        simp only [Prod.mk.injEq] at heq
        exact absurd heq.1 (h _ _ _ rfl)
      · rfl
  rw [e2]
  exact ⟨rfl, rfl⟩

end SqlConc
