import Verif.Lemmas.SqlParse
import Verif.Lemmas.SqlStore
import Verif.Spec.SqlText
/-! # The texts of the statements do what `Model/SqlStore` says -/

namespace SqlText
open Py Sql SqlStore Association Store

/-! ## Rows -/

/-- the row of an answer, from a driver that gives texts or bytes -/
def outRow (gt : Bool) (a : Assoc) : List Val :=
  [if gt then .text a.handle else .bytes (Utf8.encode a.handle), .bytes a.secret, .int a.issued, .int a.lifetime,
   if gt then .text a.assocType else .bytes (Utf8.encode a.assocType)]

theorem enc_eq (a b : Str) : (Utf8.encode a = Utf8.encode b) ↔ a = b := ⟨Utf8.encode_inj a b, fun h => h ▸ rfl⟩

theorem cell_url (B : Backend) (r : Str × Assoc) :
    (assocDef B).cell (assocRow r) t!"server_url" = some (.bytes (Utf8.encode r.1)) := rfl
theorem cell_handle (B : Backend) (r : Str × Assoc) :
    (assocDef B).cell (assocRow r) t!"handle" = some (.bytes (Utf8.encode r.2.handle)) := rfl
theorem cell_secret (B : Backend) (r : Str × Assoc) :
    (assocDef B).cell (assocRow r) t!"secret" = some (.bytes r.2.secret) := rfl
theorem cell_issued (B : Backend) (r : Str × Assoc) :
    (assocDef B).cell (assocRow r) t!"issued" = some (.int r.2.issued) := rfl
theorem cell_lifetime (B : Backend) (r : Str × Assoc) :
    (assocDef B).cell (assocRow r) t!"lifetime" = some (.int r.2.lifetime) := rfl
theorem cell_type (B : Backend) (r : Str × Assoc) :
    (assocDef B).cell (assocRow r) t!"assoc_type" = some (.bytes (Utf8.encode r.2.assocType)) := rfl
theorem ncell_url (B : Backend) (k : Str × Int × Str) :
    (nonceDef B).cell (nonceRow k) t!"server_url" = some (.bytes (Utf8.encode k.1)) := rfl
theorem ncell_time (B : Backend) (k : Str × Int × Str) :
    (nonceDef B).cell (nonceRow k) t!"timestamp" = some (.int k.2.1) := rfl
theorem ncell_salt (B : Backend) (k : Str × Int × Str) :
    (nonceDef B).cell (nonceRow k) t!"salt" = some (.bytes (Utf8.encode k.2.2)) := rfl

theorem one_iff (B : Backend) (u h : Str) (r : Str × Assoc) :
    condsHold (assocDef B) (assocRow r) [.eq (.col t!"server_url"), .eq (.col t!"handle")]
      [.bytes (Utf8.encode u), .bytes (Utf8.encode h)] = isRow u h r := by
  rw [Bool.eq_iff_iff]
  simp [condsHold, cmpHolds, cell_url, cell_handle, Val.cell, isRow, enc_eq]

theorem all_iff (B : Backend) (u : Str) (r : Str × Assoc) :
    condsHold (assocDef B) (assocRow r) [.eq (.col t!"server_url")] [.bytes (Utf8.encode u)] = (r.1 == u) := by
  rw [Bool.eq_iff_iff]
  simp [condsHold, cmpHolds, cell_url, Val.cell, enc_eq]

theorem expired_iff (B : Backend) (s : Int) (r : Str × Assoc) :
    condsHold (assocDef B) (assocRow r) [.lt (.add t!"issued" t!"lifetime")] [.int s] =
      decide (r.2.issued + r.2.lifetime < s) := by
  simp [condsHold, cmpHolds, exprInt, cell_issued, cell_lifetime]

theorem old_iff (B : Backend) (s : Int) (k : Str × Int × Str) :
    condsHold (nonceDef B) (nonceRow k) [.lt (.col t!"timestamp")] [.int s] = decide (k.2.1 < s) := by
  simp [condsHold, cmpHolds, exprInt, ncell_time]

theorem assoc_clash (B : Backend) (r s : Str × Assoc) :
    (assocDef B).clash (assocRow r) (assocRow s) = sameKey B r.1 r.2.handle s := by
  rw [Bool.eq_iff_iff]
  cases B <;>
    simp [TableDef.clash, KeyPart.part, sameKey, Backend.urlKey, assocDef, TableDef.cell, assocRow, Dict.get?, enc_eq]
  all_goals grind

theorem nonce_clash (B : Backend) (r s : Str × Int × Str) :
    (nonceDef B).clash (nonceRow r) (nonceRow s) = sameNonce B r s := by
  obtain ⟨a, b, c⟩ := r
  obtain ⟨a', b', c'⟩ := s
  rw [Bool.eq_iff_iff]
  cases B <;>
    simp [TableDef.clash, KeyPart.part, sameNonce, Backend.urlKey, nonceDef, TableDef.cell, nonceRow, Dict.get?, enc_eq]

/-! ## The two tables in the database -/

/-- `o` has the other tables -/
structure Rep (B : Backend) (a n : Str) (o : Str → Option Table) (ts : Tables) (db : Db) : Prop where
  assocs : ts.get? (lower a) = some ⟨assocDef B, db.assocs.map assocRow⟩
  nonces : ts.get? (lower n) = some ⟨nonceDef B, db.nonces.map nonceRow⟩
  others : ∀ t, t ≠ lower a → t ≠ lower n → ts.get? t = o t

variable {o : Str → Option Table}

theorem goodName_word {E : Engine} {s : Str} (h : E.goodName s = true) : s.all isWordChar = true ∧ s ≠ [] := by
  simp only [Engine.goodName, Bool.and_eq_true] at h
  refine ⟨h.1.1, ?_⟩
  rintro rfl
  simp at h

theorem Named.style {V : Env} {a n : Str} (g : Named V a n) : V.engine.style = styleOf V.driver.backend := by
  rw [g.engine]; rfl

theorem Named.strict {V : Env} {a n : Str} (g : Named V a n) :
    V.engine.strict = decide (V.driver.backend = .postgres) := by
  rw [g.engine]; rfl

theorem Named.notUnique {V : Env} {a n : Str} (g : Named V a n) : V.engine.notUnique = V.driver.notUnique := by
  rw [g.engine]; rfl

/-- arguments the code passes, for the columns it passes them for -/
theorem Good.accepts_bytes {V : Env} {a n : Str} (g : Good V a n) (b : Bytes) : V.engine.accepts .text (.bytes b) = true := by
  unfold Engine.accepts
  rw [g.strict]
  by_cases h : V.driver.backend = .postgres
  · simp [h, g.text h]
  · simp [h]

theorem Good.accepts_url {V : Env} {a n : Str} (g : Good V a n) (b : Bytes) :
    V.engine.accepts (if V.driver.backend = .mysql then .binary else .text) (.bytes b) = true := by
  by_cases h : V.driver.backend = .mysql
  · unfold Engine.accepts; rw [g.strict]; simp [h]
  · simp [h, g.accepts_bytes]

theorem accepts_int (E : Engine) (k : Int) : E.accepts .integer (.int k) = true := by
  unfold Engine.accepts; split <;> rfl

theorem Good.accepts_blob {V : Env} {a n : Str} (g : Good V a n) (b : Bytes) :
    V.engine.accepts .binary (blobEncode V.driver.backend b) = true := by
  unfold Engine.accepts blobEncode
  rw [g.strict]
  cases V.driver.backend <;> simp

/-- `execute` on the table of associations -/
theorem exec_assoc {V : Env} {a n : Str} (g : Named V a n) {ts : Tables} {db : Db} (hr : Rep V.driver.backend a n o ts db)
    {sql : Str} {stmt : Stmt} (hp : parse (styleOf V.driver.backend) sql = some stmt) (ht : stmt.table = a)
    (hc : ∀ t d, stmt ≠ .create t d) (args : List Val) :
    exec V.engine ts sql args =
      (Table.run V.engine ⟨assocDef V.driver.backend, db.assocs.map assocRow⟩ args stmt).map
        fun p => ⟨ts.set (lower a) p.1, p.2.1, p.2.2⟩ := by
  unfold exec
  rw [g.style, hp]
  unfold runStmt
  simp only [ht, g.goodA, hr.assocs, Bool.not_true, Bool.false_eq_true, if_false]
  cases stmt with
  | create t d => exact absurd rfl (hc t d)
  | _ => cases Table.run .. <;> rfl

/-- `execute` on the table of nonces -/
theorem exec_nonce {V : Env} {a n : Str} (g : Named V a n) {ts : Tables} {db : Db} (hr : Rep V.driver.backend a n o ts db)
    {sql : Str} {stmt : Stmt} (hp : parse (styleOf V.driver.backend) sql = some stmt) (ht : stmt.table = n)
    (hc : ∀ t d, stmt ≠ .create t d) (args : List Val) :
    exec V.engine ts sql args =
      (Table.run V.engine ⟨nonceDef V.driver.backend, db.nonces.map nonceRow⟩ args stmt).map
        fun p => ⟨ts.set (lower n) p.1, p.2.1, p.2.2⟩ := by
  unfold exec
  rw [g.style, hp]
  unfold runStmt
  simp only [ht, g.goodN, hr.nonces, Bool.not_true, Bool.false_eq_true, if_false]
  cases stmt with
  | create t d => exact absurd rfl (hc t d)
  | _ => cases Table.run .. <;> rfl

theorem Rep.setAssocs {V : Env} {a n : Str} (g : Named V a n) {ts : Tables} {db : Db} (hr : Rep V.driver.backend a n o ts db)
    (l : List (Str × Assoc)) :
    Rep V.driver.backend a n o (ts.set (lower a) ⟨assocDef V.driver.backend, l.map assocRow⟩) { db with assocs := l } where
  assocs := by rw [Dict.get?_set]; simp
  nonces := by rw [Dict.get?_set, if_neg g.apart]; exact hr.nonces
  others := fun t h1 h2 => by rw [Dict.get?_set, if_neg (Ne.symm h1)]; exact hr.others t h1 h2

theorem Rep.setNonces {V : Env} {a n : Str} (g : Named V a n) {ts : Tables} {db : Db} (hr : Rep V.driver.backend a n o ts db)
    (l : List (Str × Int × Str)) :
    Rep V.driver.backend a n o (ts.set (lower n) ⟨nonceDef V.driver.backend, l.map nonceRow⟩) { db with nonces := l } where
  assocs := by rw [Dict.get?_set, if_neg g.apart.symm]; exact hr.assocs
  nonces := by rw [Dict.get?_set]; simp
  others := fun t h1 h2 => by rw [Dict.get?_set, if_neg (Ne.symm h2)]; exact hr.others t h1 h2

/-! ## Simulation -/

/-- the statements kept are those that would be made -/
def Cached (V : Env) (cache : Dict Str Str) : Prop :=
  ∀ name sql, cache.get? name = some sql → makeSQL V.driver.backend V.names name = .ok sql

structure Rel (V : Env) (a n : Str) (o : Str → Option Table) (c : Cursor) (d : Cur) : Prop where
  rep : Rep V.driver.backend a n o c.tables d.db
  count : c.n = d.n
  cached : Cached V c.cache

/-- the same exception, or results that correspond -/
inductive Agree (P : α → β → Prop) : Except PyErr α → Except PyErr β → Prop where
  | ok {x : α} {y : β} : P x y → Agree P (.ok x) (.ok y)
  | error (e : PyErr) : Agree P (.error e) (.error e)

def Sim (V : Env) (a n : Str) (o : Str → Option Table) (P : α → β → Prop) (x : Run α) (y : Txn β) : Prop :=
  ∀ c d, Rel V a n o c d → Agree P (x c).1 (y d).1 ∧ Rel V a n o (x c).2 (y d).2

theorem Sim.pure {V : Env} {a n : Str} {P : α → β → Prop} {x : α} {y : β} (h : P x y) :
    Sim V a n o P (Pure.pure x) (Pure.pure y) := fun _ _ hr => ⟨.ok h, hr⟩

theorem Sim.bind {V : Env} {a n : Str} {P : α → β → Prop} {Q : γ → δ → Prop} {x : Run α} {y : Txn β} {f : α → Run γ}
    {g : β → Txn δ} (h : Sim V a n o P x y) (hf : ∀ u v, P u v → Sim V a n o Q (f u) (g v)) :
    Sim V a n o Q (x >>= f) (y >>= g) := by
  intro c d hr
  obtain ⟨h1, h2⟩ := h c d hr
  show Agree Q (Run.bind x f c).1 (Txn.bind y g d).1 ∧ Rel V a n o (Run.bind x f c).2 (Txn.bind y g d).2
  unfold Run.bind Txn.bind
  revert h1 h2
  generalize x c = p
  generalize y d = q
  obtain ⟨p1, p2⟩ := p
  obtain ⟨q1, q2⟩ := q
  intro h1 h2
  cases h1 with
  | ok hp => exact hf _ _ hp p2 q2 h2
  | error e => exact ⟨.error e, h2⟩

theorem Sim.ofExcept {V : Env} {a n : Str} {P : α → β → Prop} {x : Except PyErr α} {y : Except PyErr β} (h : Agree P x y) :
    Sim V a n o P (Run.ofExcept x) (Txn.ofExcept y) := fun _ _ hr => ⟨h, hr⟩

theorem agree_refl (x : Except PyErr α) : Agree Eq x x := by
  cases x with
  | ok a => exact .ok rfl
  | error e => exact .error e

theorem agree_eq {x y : Except PyErr α} (h : Agree Eq x y) : x = y := by
  cases h with
  | ok h => rw [h]
  | error e => rfl

theorem getSQL_ok {V : Env} {name sql : Str} (hm : makeSQL V.driver.backend V.names name = .ok sql) (c : Cursor)
    (hc : Cached V c.cache) :
    ∃ cache, getSQL V name c = (.ok sql, { c with cache := cache }) ∧ Cached V cache := by
  unfold getSQL
  cases h : c.cache.get? name with
  | some s =>
    have := hc name s h
    rw [hm] at this
    cases this
    exact ⟨c.cache, rfl, hc⟩
  | none =>
    simp only [hm]
    refine ⟨_, rfl, fun nm s hs => ?_⟩
    rw [Dict.get?_set] at hs
    split at hs
    · next he => cases hs; rw [← he]; exact hm
    · exact hc nm s hs

/-- a statement, as text and as an operation on the two tables -/
def StmtSim (V : Env) (a n : Str) (o : Str → Option Table) (sql : Str) (args : List Val) (stmt : Db → Except PyErr (Db × Nat)) : Prop :=
  ∀ ts db, Rep V.driver.backend a n o ts db →
    Agree (fun (p : Done) (q : Db × Nat) => Rep V.driver.backend a n o p.tables q.1 ∧ p.rowcount = q.2)
      (exec V.engine ts sql args) (stmt db)

/-- `db_...` and the number of rows it touched -/
theorem db_sim {V : Env} {a n : Str} {name sql : Str} {args : List Val}
    {stmt : Db → Except PyErr (Db × Nat)}
    (hm : makeSQL V.driver.backend V.names (name ++ t!"_sql") = .ok sql)
    (hs : StmtSim V a n o sql (args.map toBytes) stmt) (f : Fault) (c : Cursor) (d : Cur) (hr : Rel V a n o c d) :
    Agree Eq (db V f name args c).1 (SqlStore.execute f stmt d).1 ∧
    Rel V a n o (db V f name args c).2 (SqlStore.execute f stmt d).2 ∧
    ((SqlStore.execute f stmt d).1 = .ok () →
      (db V f name args c).2.rowcount = (SqlStore.execute f stmt d).2.rowcount) := by
  obtain ⟨cache, hg, hc⟩ := getSQL_ok hm c hr.cached
  have e : db V f name args c = execute V f sql (args.map toBytes) { c with cache := cache } := by
    show Run.bind _ _ c = _
    unfold Run.bind
    rw [hg]
  rw [e]
  unfold execute SqlStore.execute
  simp only [Nat.add_sub_cancel, hr.count]
  cases f d.n with
  | some e => exact ⟨.error e, ⟨hr.rep, rfl, hc⟩, by simp⟩
  | none =>
    have := hs _ _ hr.rep
    simp only
    cases hx : exec V.engine c.tables sql (args.map toBytes) with
    | error e =>
      cases hy : stmt d.db with
      | error e' =>
        rw [hx, hy] at this; cases this
        exact ⟨.error e, ⟨hr.rep, rfl, hc⟩, by simp⟩
      | ok q => rw [hx, hy] at this; cases this
    | ok p =>
      cases hy : stmt d.db with
      | error e' => rw [hx, hy] at this; cases this
      | ok q =>
        rw [hx, hy] at this
        obtain ⟨db', k⟩ := q
        cases this with
        | ok h => exact ⟨.ok rfl, ⟨h.1, rfl, hc⟩, fun _ => h.2⟩

theorem db_simple {V : Env} {a n : Str} {name sql : Str} {args : List Val} {stmt : Db → Except PyErr (Db × Nat)}
    (hm : makeSQL V.driver.backend V.names (name ++ t!"_sql") = .ok sql)
    (hs : StmtSim V a n o sql (args.map toBytes) stmt) (f : Fault) :
    Sim V a n o Eq (db V f name args) (SqlStore.execute f stmt) := fun c d hr =>
  ⟨(db_sim hm hs f c d hr).1, (db_sim hm hs f c d hr).2.1⟩

theorem db_counted {V : Env} {a n : Str} {name sql : Str} {args : List Val} {stmt : Db → Except PyErr (Db × Nat)}
    (hm : makeSQL V.driver.backend V.names (name ++ t!"_sql") = .ok sql)
    (hs : StmtSim V a n o sql (args.map toBytes) stmt) (f : Fault) (g : Nat → α) :
    Sim V a n o Eq (do db V f name args; let k ← getRowcount; return g k)
      (do SqlStore.execute f stmt; let k ← SqlStore.getRowcount; return g k) := by
  intro c d hr
  obtain ⟨h1, h2, h3⟩ := db_sim hm hs f c d hr
  show Agree Eq (Run.bind _ _ c).1 (Txn.bind _ _ d).1 ∧ Rel V a n o (Run.bind _ _ c).2 (Txn.bind _ _ d).2
  unfold Run.bind Txn.bind
  revert h1 h2 h3
  generalize db V f name args c = p
  generalize SqlStore.execute f stmt d = q
  obtain ⟨p1, p2⟩ := p
  obtain ⟨q1, q2⟩ := q
  intro h1 h2 h3
  cases h1 with
  | error e => exact ⟨.error e, h2⟩
  | ok h =>
    have hk : p2.rowcount = q2.rowcount := h3 (by subst h; rfl)
    refine ⟨?_, h2⟩
    show Agree Eq (.ok (g p2.rowcount)) (.ok (g q2.rowcount))
    rw [hk]
    exact .ok rfl

/-- a `SELECT` and its rows -/
theorem select_sim {V : Env} {a n : Str} {name sql : Str} {args : List Val} {q : Db → List Assoc}
    (hm : makeSQL V.driver.backend V.names (name ++ t!"_sql") = .ok sql)
    (hs : ∀ ts db, Rep V.driver.backend a n o ts db →
      ∃ ts' k, exec V.engine ts sql (args.map toBytes) = .ok ⟨ts', k, (q db).map (outRow V.engine.givesText)⟩ ∧
        Rep V.driver.backend a n o ts' db) (f : Fault) :
    Sim V a n o (fun rows l => rows = l.map (outRow V.engine.givesText))
      (do db V f name args; fetchall) (select f q) := by
  intro c d hr
  obtain ⟨cache, hg, hc⟩ := getSQL_ok hm c hr.cached
  have e : db V f name args c = execute V f sql (args.map toBytes) { c with cache := cache } := by
    show Run.bind _ _ c = _
    unfold Run.bind
    rw [hg]
  show Agree _ (Run.bind _ _ c).1 _ ∧ Rel V a n o (Run.bind _ _ c).2 _
  unfold Run.bind
  rw [e]
  unfold execute select
  simp only [Nat.add_sub_cancel, hr.count]
  cases f d.n with
  | some e => exact ⟨.error e, ⟨hr.rep, rfl, hc⟩⟩
  | none =>
    obtain ⟨ts', k, hx, hrep⟩ := hs _ _ hr.rep
    simp only [hx]
    exact ⟨.ok rfl, ⟨hrep, rfl, hc⟩⟩

end SqlText
