import Verif.Lemmas.SqlTextOps
/-! # What the SQL stores hand to the database -/

namespace SqlText
open Py Sql SqlStore Association Store

/-- what is handed to the database is made from the statements of the store -/
def Keeps (V : Env) (x : Run α) : Prop :=
  ∀ c, Cached V c.cache → Cached V (x c).2.cache ∧
    ∃ more, (x c).2.sent = c.sent ++ more ∧ ∀ p ∈ more, FromTemplate V p

theorem Keeps.pure {V : Env} (a : α) : Keeps V (Pure.pure a : Run α) := fun _ h => ⟨h, [], by simp [Pure.pure, Run.pure], by simp⟩

theorem Keeps.ofExcept {V : Env} (a : Except PyErr α) : Keeps V (Run.ofExcept a) :=
  fun _ h => ⟨h, [], by simp [Run.ofExcept], by simp⟩

theorem Keeps.bind {V : Env} {x : Run α} {f : α → Run β} (h : Keeps V x) (hf : ∀ a, Keeps V (f a)) : Keeps V (x >>= f) := by
  intro c hc
  obtain ⟨h1, m, h2, h3⟩ := h c hc
  show Cached V (Run.bind x f c).2.cache ∧ ∃ more, (Run.bind x f c).2.sent = _ ∧ _
  unfold Run.bind
  revert h1 h2
  generalize x c = p
  obtain ⟨p1, p2⟩ := p
  intro h1 h2
  cases p1 with
  | error e => exact ⟨h1, m, h2, h3⟩
  | ok a =>
    obtain ⟨k1, m', k2, k3⟩ := hf a p2 h1
    refine ⟨k1, m ++ m', ?_, fun p hp => ?_⟩
    · rw [k2]; simp only at h2; rw [h2, List.append_assoc]
    · rcases List.mem_append.1 hp with hp | hp
      · exact h3 p hp
      · exact k3 p hp

theorem Keeps.except {V : Env} {x : Run α} (h : Keeps V x) (caught : PyErr → Bool) (a : α) : Keeps V (Run.except x caught a) := by
  intro c hc
  obtain ⟨h1, m, h2, h3⟩ := h c hc
  unfold Run.except
  revert h1 h2
  generalize x c = p
  obtain ⟨p1, p2⟩ := p
  intro h1 h2
  cases p1 with
  | ok b => exact ⟨h1, m, h2, h3⟩
  | error e =>
    simp only
    split <;> exact ⟨h1, m, h2, h3⟩

theorem keeps_fetchall {V : Env} : Keeps V fetchall := fun _ h => ⟨h, [], by simp [fetchall], by simp⟩
theorem keeps_rowcount {V : Env} : Keeps V getRowcount := fun _ h => ⟨h, [], by simp [getRowcount], by simp⟩

theorem makeSQL_mem {B : Backend} {names : Dict Str Str} {name sql : Str} (h : makeSQL B names name = .ok sql) :
    ∃ t ∈ statements B, format names t.2 = .ok sql := by
  unfold makeSQL at h
  cases hg : (statements B).get? name with
  | none => rw [hg] at h; simp at h
  | some t => rw [hg] at h; exact ⟨(name, t), Dict.get?_mem _ _ _ hg, h⟩

theorem toBytes_text (v : Val) (s : Str) : toBytes v ≠ .text s := by
  cases v <;> simp [toBytes]

theorem keeps_db {V : Env} (f : Fault) (name : Str) (args : List Val) : Keeps V (db V f name args) := by
  intro c hc
  have e : db V f name args c = Run.bind (getSQL V (name ++ t!"_sql")) (fun sql => execute V f sql (args.map toBytes)) c := rfl
  rw [e]
  unfold Run.bind
  have hex : ∀ sql cache, makeSQL V.driver.backend V.names (name ++ t!"_sql") = .ok sql → Cached V cache →
      Cached V (execute V f sql (args.map toBytes) { c with cache := cache }).2.cache ∧
      ∃ more, (execute V f sql (args.map toBytes) { c with cache := cache }).2.sent = c.sent ++ more ∧
        ∀ p ∈ more, FromTemplate V p := by
    intro sql cache hm hcache
    have ht : FromTemplate V (sql, args.map toBytes) := by
      refine ⟨makeSQL_mem hm, fun v hv s => ?_⟩
      obtain ⟨w, _, rfl⟩ := List.mem_map.1 hv
      exact toBytes_text w s
    unfold execute
    simp only
    split
    · exact ⟨hcache, [(sql, args.map toBytes)], rfl, by simpa using ht⟩
    · split <;> exact ⟨hcache, [(sql, args.map toBytes)], rfl, by simpa using ht⟩
  cases hm : makeSQL V.driver.backend V.names (name ++ t!"_sql") with
  | ok sql =>
    obtain ⟨cache, hg, h⟩ := getSQL_ok hm c hc
    rw [hg]
    exact hex sql cache hm h
  | error x =>
    unfold getSQL
    cases hg : c.cache.get? (name ++ t!"_sql") with
    | none => simp only [hm]; exact ⟨hc, [], by simp, by simp⟩
    | some sql => have := hc _ _ hg; rw [hm] at this; simp at this

theorem keeps_setAssoc {V : Env} (f : Fault) (a b c d e g : Val) : Keeps V (setAssoc V f a b c d e g) := by
  unfold setAssoc
  split
  · refine (keeps_db _ _ _).bind fun _ => keeps_fetchall.bind fun rows => ?_
    split <;> exact keeps_db _ _ _
  · exact keeps_db _ _ _

theorem keeps_remove {V : Env} (f : Fault) (u h : Str) : Keeps V (removeAssociation V f u h) :=
  (keeps_db _ _ _).bind fun _ => keeps_rowcount.bind fun _ => Keeps.pure _

theorem keeps_keepRow {V : Env} (f : Fault) (s : Int) (u : Str) (r : List Val) : Keeps V (keepRow V f s u r) := by
  refine (Keeps.ofExcept _).bind fun a => ?_
  split
  · exact (keeps_remove f u _).bind fun _ => Keeps.pure _
  · exact Keeps.pure _

theorem keeps_keepRows {V : Env} (f : Fault) (s : Int) (u : Str) : ∀ rs, Keeps V (keepRows V f s u rs)
  | [] => Keeps.pure _
  | r :: rs => (keeps_keepRow f s u r).bind fun _ => (keeps_keepRows f s u rs).bind fun _ => Keeps.pure _

theorem keeps_get {V : Env} (f : Fault) (s : Int) (u : Str) (h : Option Str) : Keeps V (getAssociation V f s u h) := by
  refine Keeps.bind ?_ fun _ => keeps_fetchall.bind fun rows => (keeps_keepRows f s u rows).bind fun _ => Keeps.ofExcept _
  cases h <;> exact keeps_db _ _ _

theorem keeps_body {V : Env} (c : Clock) (f : Fault) (now : Nat) (op : Op) : Keeps V (body V c f now op) := by
  cases op with
  | storeAssociation u x => exact (keeps_setAssoc _ _ _ _ _ _ _).bind fun _ => Keeps.pure _
  | getAssociation u h => exact (keeps_get _ _ _ _).bind fun _ => Keeps.pure _
  | removeAssociation u h => exact (keeps_remove _ _ _).bind fun _ => Keeps.pure _
  | useNonce u t salt =>
    refine Keeps.bind ?_ fun _ => Keeps.pure _
    unfold useNonce
    split
    · exact Keeps.pure _
    · exact ((keeps_db _ _ _).bind fun _ => Keeps.pure _).except _ _
  | cleanupNonces => exact ((keeps_db _ _ _).bind fun _ => keeps_rowcount).bind fun _ => Keeps.pure _
  | cleanupAssociations => exact ((keeps_db _ _ _).bind fun _ => keeps_rowcount).bind fun _ => Keeps.pure _

theorem keeps_txn {V : Env} {x : Run α} (h : Keeps V x) (cf : Option PyErr) (s : State) (hs : Cached V s.cache) :
    Cached V (callInTransaction x cf s).2.cache ∧
    ∃ more, (callInTransaction x cf s).2.sent = s.sent ++ more ∧ ∀ p ∈ more, FromTemplate V p := by
  obtain ⟨h1, m, h2, h3⟩ := h ⟨s.tables, 0, 0, [], s.cache, s.sent⟩ hs
  unfold callInTransaction
  revert h1 h2
  generalize x ⟨s.tables, 0, 0, [], s.cache, s.sent⟩ = p
  obtain ⟨p1, p2⟩ := p
  intro h1 h2
  cases p1 with
  | error e => exact ⟨h1, m, h2, h3⟩
  | ok a => cases cf <;> exact ⟨h1, m, h2, h3⟩

theorem keeps_run {V : Env} (c : Clock) (calls : List Call) : ∀ s : State, Cached V s.cache →
    Cached V (run V c s calls).2.cache ∧
    ∃ more, (run V c s calls).2.sent = s.sent ++ more ∧ ∀ p ∈ more, FromTemplate V p := by
  induction calls with
  | nil => exact fun s h => ⟨h, [], by simp [run], by simp⟩
  | cons e r ih =>
    intro s hs
    obtain ⟨h1, m, h2, h3⟩ := keeps_txn (keeps_body (V := V) c e.fault e.now e.op) e.commitFault s hs
    obtain ⟨k1, m', k2, k3⟩ := ih _ h1
    refine ⟨k1, m ++ m', ?_, fun p hp => ?_⟩
    · show (run V c (step V c s e).1 r).2.sent = _
      show (run V c (callInTransaction (body V c e.fault e.now e.op) e.commitFault s).2 r).2.sent = _
      rw [k2, h2, List.append_assoc]
    · rcases List.mem_append.1 hp with hp | hp
      · exact h3 p hp
      · exact k3 p hp

theorem keeps_create {V : Env} (f : Fault) : Keeps V (createTables V f) := (keeps_db _ _ _).bind fun _ => keeps_db _ _ _

/-! ## Refusals -/

variable {o : Str → Option Table}

/-- a transaction whose body raises leaves the tables -/
theorem txn_raises {x : Run α} {cf : Option PyErr} {s : State} {e : PyErr}
    (h : (x ⟨s.tables, 0, 0, [], s.cache, s.sent⟩).1 = .error e) :
    (callInTransaction x cf s).1 = .error e ∧ (callInTransaction x cf s).2.tables = s.tables := by
  unfold callInTransaction
  revert h
  generalize x ⟨s.tables, 0, 0, [], s.cache, s.sent⟩ = p
  obtain ⟨p1, p2⟩ := p
  intro h
  cases h
  exact ⟨rfl, rfl⟩

theorem bind_raises {x : Run α} {f : α → Run β} {c : Cursor} {e : PyErr} (h : (x c).1 = .error e) :
    ((x >>= f) c).1 = .error e := by
  show (Run.bind x f c).1 = _
  unfold Run.bind
  revert h
  generalize x c = p
  obtain ⟨p1, p2⟩ := p
  intro h
  cases h
  rfl

theorem db_raises {V : Env} {name sql : Str} (hm : makeSQL V.driver.backend V.names (name ++ t!"_sql") = .ok sql)
    (args : List Val) (c : Cursor) (hc : Cached V c.cache) {e : PyErr}
    (hx : exec V.engine c.tables sql (args.map toBytes) = .error e) :
    (db V (fun _ => none) name args c).1 = .error e := by
  obtain ⟨cache, h, _⟩ := db_eq hm (fun _ => none) args c hc
  rw [h]
  simp only [execute, hx]

theorem bytes_refused {V : Env} {a n : Str} (g : Named V a n) (hp : V.driver.backend = .postgres)
    (hb : V.engine.bytesAsText = false) (b : Bytes) : V.engine.accepts .text (.bytes b) = false := by
  unfold Engine.accepts
  rw [g.strict]
  simp [hp, hb]

/-- every operation that sends a text is refused -/
theorem body_refused {V : Env} {a n : Str} (g : Named V a n) (hB : V.driver.backend = .postgres)
    (hb : V.engine.bytesAsText = false) (c : Clock) (now : Nat) (op : Op) (hop : SendsText c now op) {s : State} {d : Db}
    (h : Holds V a n o s d) :
    (body V c (fun _ => none) now op ⟨s.tables, 0, 0, [], s.cache, s.sent⟩).1 = .error refused := by
  obtain ⟨hw, hn⟩ := goodName_word g.goodA
  obtain ⟨hw', hn'⟩ := goodName_word g.goodN
  have hno := bytes_refused g hB hb
  have url : ∀ b, V.engine.accepts (if V.driver.backend = .mysql then .binary else .text) (.bytes b) = false := by
    intro b; rw [hB]; exact hno b
  have hone : ∀ u h : Str, V.engine.condsTyped (assocDef V.driver.backend)
      [.eq (.col t!"server_url"), .eq (.col t!"handle")] [.bytes (Utf8.encode u), .bytes (Utf8.encode h)] = false := by
    intro u h
    simp [Engine.condsTyped, Engine.cmpTyped, TableDef.typeOf, assocDef, Dict.get?, url]
  have get1 : ∀ u hd : Str, (db V (fun _ => none) t!"get_assoc" [.text u, .text hd]
      ⟨s.tables, 0, 0, [], s.cache, s.sent⟩).1 = .error refused := by
    intro u hd
    obtain ⟨sql, hm, hp⟩ := stmt_get_assoc (B := V.driver.backend) g.assocs hw hn
    refine db_raises (name := t!"get_assoc") hm _ _ h.cached ?_
    rw [exec_assoc g h.rep hp rfl (by simp)]
    simp only [Table.run, List.map_cons, List.map_nil, toBytes, hone, Bool.not_false, or_true, if_true]
    rfl
  cases op with
  | storeAssociation u x =>
    refine bind_raises ?_
    unfold storeAssociation setAssoc
    rw [if_pos hB]
    exact bind_raises (get1 u x.handle)
  | getAssociation u hd =>
    refine bind_raises (bind_raises ?_)
    cases hd with
    | some hd => exact get1 u hd
    | none =>
      obtain ⟨sql, hm, hp⟩ := stmt_get_assocs (B := V.driver.backend) g.assocs hw hn
      refine db_raises (name := t!"get_assocs") hm _ _ h.cached ?_
      rw [exec_assoc g h.rep hp rfl (by simp)]
      have : V.engine.condsTyped (assocDef V.driver.backend) [.eq (.col t!"server_url")] [.bytes (Utf8.encode u)] = false := by
        simp [Engine.condsTyped, Engine.cmpTyped, TableDef.typeOf, assocDef, Dict.get?, url]
      simp only [Table.run, List.map_cons, List.map_nil, toBytes, this, Bool.not_false, or_true, if_true]
      rfl
  | removeAssociation u hd =>
    refine bind_raises (bind_raises ?_)
    obtain ⟨sql, hm, hp⟩ := stmt_remove_assoc (B := V.driver.backend) g.assocs hw hn
    refine db_raises (name := t!"remove_assoc") hm _ _ h.cached ?_
    rw [exec_assoc g h.rep hp rfl (by simp)]
    simp only [Table.run, List.map_cons, List.map_nil, toBytes, hone, Bool.not_false, or_true, if_true]
    rfl
  | useNonce u t salt =>
    refine bind_raises ?_
    have hout : outside c now t = false := hop
    unfold useNonce
    rw [hout]
    obtain ⟨sql, hm, hp⟩ := stmt_add_nonce (B := V.driver.backend) g.nonces hw' hn'
    have hdb : (db V (fun _ => none) t!"add_nonce" [.text u, .int t, .text salt]
        ⟨s.tables, 0, 0, [], s.cache, s.sent⟩).1 = .error refused := by
      refine db_raises (name := t!"add_nonce") hm _ _ h.cached ?_
      rw [exec_nonce g h.rep hp rfl (by simp)]
      have : V.engine.colsTyped (nonceDef V.driver.backend) (insertCols (nonceDef V.driver.backend) none)
          [.bytes (Utf8.encode u), .int t, .bytes (Utf8.encode salt)] = false := by
        simp [Engine.colsTyped, TableDef.typeOf, nonceDef, Dict.get?, url, insertCols]
      simp only [Table.run, List.map_cons, List.map_nil, toBytes, this, Bool.not_false, or_true, if_true]
      rfl
    have hb := bind_raises (f := fun _ => (pure true : Run Bool)) hdb
    simp only [Bool.false_eq_true, if_false]
    unfold Run.except
    revert hb
    generalize (db V (fun _ => none) t!"add_nonce" [.text u, .int t, .text salt] >>= fun _ => (pure true : Run Bool))
      ⟨s.tables, 0, 0, [], s.cache, s.sent⟩ = p
    obtain ⟨p1, p2⟩ := p
    intro hb
    cases hb
    rfl
  | cleanupNonces => exact hop.elim
  | cleanupAssociations => exact hop.elim

/-- PostgreSQL: a secret of more than 128 bytes is refused -/
theorem store_long {V : Env} {a n : Str} (g : Good V a n) (hB : V.driver.backend = .postgres) (c : Clock) (now : Nat)
    (u : Str) (x : Assoc) (hx : 128 < x.secret.length) {s : State} {d : Db} (h : Holds V a n o s d) :
    (body V c (fun _ => none) now (.storeAssociation u x) ⟨s.tables, 0, 0, [], s.cache, s.sent⟩).1 =
      .error .integrityError := by
  obtain ⟨hw, hn⟩ := goodName_word g.goodA
  have hbad : ∀ w hd, (assocDef V.driver.backend).checksOk (assocRow (w, { x with handle := hd })) = false := by
    intro w hd
    unfold TableDef.checksOk
    rw [hB]
    show (([(t!"secret", 128)] : List (Str × Nat)).all _) = false
    simp only [List.all_cons, List.all_nil, Bool.and_true, cell_secret]
    simpa using hx
  refine bind_raises ?_
  unfold storeAssociation setAssoc
  rw [if_pos hB]
  obtain ⟨hsel, hrel⟩ := select_one (o := o) g (fun _ => none) u x.handle ⟨s.tables, 0, 0, [], s.cache, s.sent⟩ ⟨d, 0, 0⟩
    ⟨h.rep, rfl, h.cached⟩
  rw [bind_assoc]
  show (Run.bind _ _ _).1 = _
  unfold Run.bind
  revert hsel hrel
  generalize (db V (fun _ => none) t!"get_assoc" [.text u, .text x.handle] >>= fun _ => fetchall)
    ⟨s.tables, 0, 0, [], s.cache, s.sent⟩ = p
  obtain ⟨p1, p2⟩ := p
  intro hsel hrel
  have hsel' : Agree (fun (rows : List (List Val)) l => rows = List.map (outRow V.engine.givesText) l) p1
    (.ok (selectOne u x.handle d)) := hsel
  have hrep : Rep V.driver.backend a n o p2.tables d := hrel.rep
  cases hsel' with
  | @ok rows l hrows =>
    subst hrows
    simp only [List.length_map]
    split
    · next hlen =>
      obtain ⟨sql, hm, hp⟩ := stmt_update_assoc g.assocs hw hn
      rw [← hB] at hm hp
      refine db_raises (name := t!"update_assoc") hm _ _ hrel.cached ?_
      rw [exec_assoc g.toNamed hrep hp rfl (by simp)]
      have hk : (assocDef V.driver.backend).keys.any (fun ks => ks.any fun k =>
          [t!"secret", t!"issued", t!"lifetime", t!"assoc_type"].contains k.col) = false := rfl
      have hall : ((d.assocs.filter (isRow u x.handle)).map assocRow).all (fun r => (assocDef V.driver.backend).checksOk
          (setCols (assocDef V.driver.backend) [t!"secret", t!"issued", t!"lifetime", t!"assoc_type"]
            [blobEncode V.driver.backend x.secret, .int x.issued, .int x.lifetime, .bytes (Utf8.encode x.assocType)] r)) =
          false := by
        rw [List.all_map]
        unfold selectOne at hlen
        rw [List.length_map] at hlen
        cases hf : d.assocs.filter (isRow u x.handle) with
        | nil => rw [hf] at hlen; exact absurd rfl hlen
        | cons r rs => simp only [List.all_cons, Function.comp, set_row, hbad, Bool.false_and]
      simp only [List.map_cons, List.map_nil, blob_toBytes]
      simp only [Table.run, toBytes, List.length_cons, List.length_nil,
        List.take_succ_cons, List.take_zero, List.drop_succ_cons, List.drop_zero, set_typed g x, args_typed g u x.handle, hk,
        (filter_rows _ _ _ _ _ fun r => one_iff _ u x.handle r).1, hall,
        ne_eq, not_true_eq_false, Bool.not_true, Bool.not_false, Bool.false_eq_true, or_self, if_false, if_true]
      rfl
    · obtain ⟨sql, hm, hp⟩ := stmt_new_assoc g.assocs hw hn
      rw [← hB] at hm hp
      refine db_raises (name := t!"new_assoc") hm _ _ hrel.cached ?_
      rw [exec_assoc g.toNamed hrep hp rfl (by simp)]
      have hcols : insertCols (assocDef V.driver.backend) none =
        [t!"server_url", t!"handle", t!"secret", t!"issued", t!"lifetime", t!"assoc_type"] := rfl
      have hbad' : (assocDef V.driver.backend).checksOk (assocRow (u, x)) = false := hbad u x.handle
      simp only [List.map_cons, List.map_nil, blob_toBytes]
      simp only [Table.run, toBytes, hcols, six_typed g u x, six_row, Table.insert,
        hbad', List.length_cons, List.length_nil,
        ne_eq, not_true_eq_false, Bool.not_true, Bool.not_false, Bool.false_eq_true, or_self, if_false, if_true]
      rfl

end SqlText
