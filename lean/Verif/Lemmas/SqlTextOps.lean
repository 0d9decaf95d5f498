import Verif.Lemmas.SqlText
/-! # Each statement and each operation of the SQL stores, as text and on the two tables -/

namespace SqlText
open Py Sql SqlStore Association Store

variable {o : Str → Option Table}

theorem args_typed {V : Env} {a n : Str} (g : Good V a n) (u h : Str) :
    V.engine.condsTyped (assocDef V.driver.backend) [.eq (.col t!"server_url"), .eq (.col t!"handle")]
      [.bytes (Utf8.encode u), .bytes (Utf8.encode h)] = true := by
  simp [Engine.condsTyped, Engine.cmpTyped, TableDef.typeOf, assocDef, Dict.get?, g.accepts_url, g.accepts_bytes]

theorem filter_rows (B : Backend) (l : List (Str × Assoc)) (conds : List Cmp) (args : List Val) (p : Str × Assoc → Bool)
    (h : ∀ r, condsHold (assocDef B) (assocRow r) conds args = p r) :
    (l.map assocRow).filter (fun r => condsHold (assocDef B) r conds args) = (l.filter p).map assocRow ∧
    (l.map assocRow).filter (fun r => !condsHold (assocDef B) r conds args) = (l.filter fun r => !p r).map assocRow := by
  constructor <;> rw [List.filter_map] <;> congr 2 <;> funext r <;> simp [h]

theorem mapM_map_ok {f : β → Except PyErr γ} {g : α → β} {k : α → γ} (l : List α) (h : ∀ x, f (g x) = .ok (k x)) :
    (l.map g).mapM f = .ok (l.map k) := by
  induction l with
  | nil => rfl
  | cons x l ih =>
    rw [List.map_cons, List.mapM_cons, h x, ih]
    rfl

theorem give_row {V : Env} (B : Backend) (r : Str × Assoc) :
    [t!"handle", t!"secret", t!"issued", t!"lifetime", t!"assoc_type"].mapM (V.engine.giveCol (assocDef B) (assocRow r)) =
      .ok (outRow V.engine.givesText r.2) := by
  have h1 : V.engine.giveCol (assocDef B) (assocRow r) t!"handle" =
      .ok (if V.engine.givesText then .text r.2.handle else .bytes (Utf8.encode r.2.handle)) := by
    show (if ColType.text = ColType.text ∧ V.engine.givesText = true then _ else _) = _
    cases V.engine.givesText
    · rfl
    · simp only [Utf8.decode_encode]; rfl
  have h5 : V.engine.giveCol (assocDef B) (assocRow r) t!"assoc_type" =
      .ok (if V.engine.givesText then .text r.2.assocType else .bytes (Utf8.encode r.2.assocType)) := by
    show (if ColType.text = ColType.text ∧ V.engine.givesText = true then _ else _) = _
    cases V.engine.givesText
    · rfl
    · simp only [Utf8.decode_encode]; rfl
  have h2 : V.engine.giveCol (assocDef B) (assocRow r) t!"secret" = .ok (.bytes r.2.secret) := rfl
  have h3 : V.engine.giveCol (assocDef B) (assocRow r) t!"issued" = .ok (.int r.2.issued) := rfl
  have h4 : V.engine.giveCol (assocDef B) (assocRow r) t!"lifetime" = .ok (.int r.2.lifetime) := rfl
  simp only [List.mapM_cons, h1, h2, h3, h4, h5]
  rfl

theorem select_rows {V : Env} {a n : Str} (g : Good V a n) {ts : Tables} {d : Db} (hr : Rep V.driver.backend a n o ts d)
    {sql : Str} {conds : List Cmp} {args : List Val} {p : Str × Assoc → Bool}
    (hp : parse (styleOf V.driver.backend) sql =
      some (.select [t!"handle", t!"secret", t!"issued", t!"lifetime", t!"assoc_type"] a conds))
    (hl : args.length = conds.length) (ht : V.engine.condsTyped (assocDef V.driver.backend) conds args = true)
    (h : ∀ r, condsHold (assocDef V.driver.backend) (assocRow r) conds args = p r) :
    ∃ ts' k, exec V.engine ts sql args =
        .ok ⟨ts', k, ((d.assocs.filter p).map (·.2)).map (outRow V.engine.givesText)⟩ ∧
      Rep V.driver.backend a n o ts' d := by
  rw [exec_assoc g.toNamed hr hp rfl (by simp) args]
  unfold Table.run
  simp only [hl, ht, Bool.not_true, ne_eq, not_true_eq_false, Bool.false_eq_true, or_self, if_false]
  rw [(filter_rows _ _ _ _ p h).1, mapM_map_ok (k := fun r => outRow V.engine.givesText r.2) _ fun r => give_row _ r]
  refine ⟨_, (d.assocs.filter p).length, ?_, hr.setAssocs g.toNamed d.assocs⟩
  show Except.ok (Done.mk _ _ _) = _
  rw [List.map_map, List.length_map]
  rfl

theorem select_one {V : Env} {a n : Str} (g : Good V a n) (f : Fault) (u h : Str) :
    Sim V a n o (fun rows l => rows = l.map (outRow V.engine.givesText))
      (do db V f t!"get_assoc" [.text u, .text h]; fetchall) (select f (selectOne u h)) := by
  obtain ⟨hw, hn⟩ := goodName_word g.goodA
  obtain ⟨sql, hm, hp⟩ := stmt_get_assoc (B := V.driver.backend) g.assocs hw hn
  exact select_sim (args := [.text u, .text h]) hm (fun ts d hr => select_rows g hr hp rfl (args_typed g u h) fun r => one_iff _ u h r) f

theorem select_all {V : Env} {a n : Str} (g : Good V a n) (f : Fault) (u : Str) :
    Sim V a n o (fun rows l => rows = l.map (outRow V.engine.givesText))
      (do db V f t!"get_assocs" [.text u]; fetchall) (select f (selectAll u)) := by
  obtain ⟨hw, hn⟩ := goodName_word g.goodA
  obtain ⟨sql, hm, hp⟩ := stmt_get_assocs (B := V.driver.backend) g.assocs hw hn
  refine select_sim (args := [.text u]) hm (fun ts d hr => select_rows g hr hp rfl ?_ fun r => all_iff _ u r) f
  simp [Engine.condsTyped, Engine.cmpTyped, TableDef.typeOf, assocDef, Dict.get?, g.accepts_url, toBytes]

/-- `DELETE` from the associations -/
theorem delete_rows {V : Env} {a n : Str} (g : Good V a n) {sql : Str} {conds : List Cmp} {args : List Val}
    {p : Str × Assoc → Bool} (hp : parse (styleOf V.driver.backend) sql = some (.delete a conds))
    (hl : args.length = conds.length) (ht : V.engine.condsTyped (assocDef V.driver.backend) conds args = true)
    (h : ∀ r, condsHold (assocDef V.driver.backend) (assocRow r) conds args = p r) :
    StmtSim V a n o sql args (deleteRows p) := by
  intro ts d hr
  rw [exec_assoc g.toNamed hr hp rfl (by simp) args]
  unfold Table.run
  simp only [hl, ht, Bool.not_true, ne_eq, not_true_eq_false, Bool.false_eq_true, or_self, if_false]
  rw [(filter_rows _ _ _ _ p h).1, (filter_rows _ _ _ _ p h).2]
  exact .ok ⟨hr.setAssocs g.toNamed _, by simp⟩

theorem remove_sim {V : Env} {a n : Str} (g : Good V a n) (f : Fault) (u h : Str) :
    Sim V a n o Eq (removeAssociation V f u h) (txnRemoveAssociation f u h) := by
  obtain ⟨hw, hn⟩ := goodName_word g.goodA
  obtain ⟨sql, hm, hp⟩ := stmt_remove_assoc (B := V.driver.backend) g.assocs hw hn
  exact db_counted (args := [.text u, .text h]) hm (delete_rows g hp rfl (args_typed g u h) fun r => one_iff _ u h r) f _

theorem cleanupAssociations_sim {V : Env} {a n : Str} (g : Good V a n) (c : Clock) (f : Fault) (now : Nat) :
    Sim V a n o Eq (cleanupAssociations V c f now) (txnCleanupAssociations c f now) := by
  obtain ⟨hw, hn⟩ := goodName_word g.goodA
  obtain ⟨sql, hm, hp⟩ := stmt_clean_assoc (B := V.driver.backend) g.assocs hw hn
  refine db_counted hm (delete_rows g hp rfl ?_ fun r => expired_iff _ _ r) f id
  simp [Engine.condsTyped, Engine.cmpTyped, TableDef.typeOf, assocDef, Dict.get?, accepts_int, toBytes]

theorem cleanupNonces_sim {V : Env} {a n : Str} (g : Good V a n) (c : Clock) (f : Fault) (now : Nat) :
    Sim V a n o Eq (cleanupNonces V c f now) (txnCleanupNonces c f now) := by
  obtain ⟨hw, hn⟩ := goodName_word g.goodN
  obtain ⟨sql, hm, hp⟩ := stmt_clean_nonce (B := V.driver.backend) g.nonces hw hn
  refine db_counted hm ?_ f id
  intro ts d hr
  rw [exec_nonce g.toNamed hr hp rfl (by simp)]
  have ht : V.engine.condsTyped (nonceDef V.driver.backend) [.lt (.col t!"timestamp")]
      [.int (c.seconds now - Nonce.SKEW)] = true := by
    simp [Engine.condsTyped, Engine.cmpTyped, TableDef.typeOf, nonceDef, Dict.get?, accepts_int]
  unfold Table.run
  simp only [List.map_cons, List.map_nil, toBytes, ht, List.length_singleton, ne_eq, not_true_eq_false, Bool.not_true,
    Bool.false_eq_true, or_self, if_false]
  have e1 : (d.nonces.map nonceRow).filter (fun r => condsHold (nonceDef V.driver.backend) r [.lt (.col t!"timestamp")]
      [.int (c.seconds now - Nonce.SKEW)]) =
      (d.nonces.filter fun k => decide (k.2.1 < c.seconds now - Nonce.SKEW)).map nonceRow := by
    rw [List.filter_map]; congr 2; funext k; exact old_iff _ _ k
  have e2 : (d.nonces.map nonceRow).filter (fun r => !condsHold (nonceDef V.driver.backend) r [.lt (.col t!"timestamp")]
      [.int (c.seconds now - Nonce.SKEW)]) =
      (d.nonces.filter fun k => !decide (k.2.1 < c.seconds now - Nonce.SKEW)).map nonceRow := by
    rw [List.filter_map]; congr 2; funext k; simp only [Function.comp, old_iff]
  rw [e1, e2]
  exact .ok ⟨hr.setNonces g.toNamed _, by simp⟩

theorem insert_nonce {V : Env} {a n : Str} (g : Good V a n) {sql : Str} (u : Str) (t : Int) (salt : Str)
    (hp : parse (styleOf V.driver.backend) sql = some (.insert false n none 3)) :
    StmtSim V a n o sql [.bytes (Utf8.encode u), .int t, .bytes (Utf8.encode salt)] (insertNonce V.driver (u, t, salt)) := by
  intro ts d hr
  rw [exec_nonce g.toNamed hr hp rfl (by simp)]
  have ht : V.engine.colsTyped (nonceDef V.driver.backend) [t!"server_url", t!"timestamp", t!"salt"]
      [.bytes (Utf8.encode u), .int t, .bytes (Utf8.encode salt)] = true := by
    simp [Engine.colsTyped, TableDef.typeOf, nonceDef, Dict.get?, accepts_int, g.accepts_url, g.accepts_bytes]
  have hnew : newRow (nonceDef V.driver.backend) [t!"server_url", t!"timestamp", t!"salt"]
      [.bytes (Utf8.encode u), .int t, .bytes (Utf8.encode salt)] = some (nonceRow (u, t, salt)) := rfl
  have hcols : insertCols (nonceDef V.driver.backend) none = [t!"server_url", t!"timestamp", t!"salt"] := rfl
  have hany : (d.nonces.map nonceRow).any ((nonceDef V.driver.backend).clash (nonceRow (u, t, salt))) =
      d.nonces.any (sameNonce V.driver.backend (u, t, salt)) := by
    rw [List.any_map]; congr 1; funext k; exact nonce_clash _ _ k
  unfold Table.run
  simp only [hcols, ht, hnew, List.length_cons, List.length_nil, ne_eq, not_true_eq_false, Bool.not_true,
    Bool.false_eq_true, or_self, if_false]
  unfold Table.insert insertNonce
  rw [hany, g.notUnique]
  have hck : (nonceDef V.driver.backend).checksOk (nonceRow (u, t, salt)) = true := rfl
  simp only [hck, Bool.not_true, Bool.false_eq_true, if_false]
  split
  · exact .error _
  · refine .ok ⟨?_, rfl⟩
    have := hr.setNonces g.toNamed (d.nonces ++ [(u, t, salt)])
    simpa using this

theorem useNonce_sim {V : Env} {a n : Str} (g : Good V a n) (c : Clock) (f : Fault) (now : Nat) (u : Str) (t : Int) (salt : Str) :
    Sim V a n o Eq (useNonce V c f now u t salt) (txnUseNonce V.driver c f now u t salt) := by
  obtain ⟨hw, hn⟩ := goodName_word g.goodN
  obtain ⟨sql, hm, hp⟩ := stmt_add_nonce (B := V.driver.backend) g.nonces hw hn
  unfold useNonce txnUseNonce
  split
  · exact Sim.pure rfl
  · have h := Sim.bind (o := o) (Q := @Eq Bool)
      (db_simple (name := t!"add_nonce") (args := [.text u, .int t, .text salt]) hm (insert_nonce g u t salt hp) f)
      (f := fun _ => pure true) (g := fun _ => pure true) fun _ _ _ => Sim.pure rfl
    intro x y hr
    obtain ⟨h1, h2⟩ := h x y hr
    unfold Run.except Txn.except
    revert h1 h2
    simp only [bind, pure]
    generalize Run.bind (db V f t!"add_nonce" [.text u, .int t, .text salt]) (fun _ => Run.pure true) x = p
    generalize Txn.bind (SqlStore.execute f (insertNonce V.driver (u, t, salt))) (fun _ => Txn.pure true) y = q
    obtain ⟨p1, p2⟩ := p
    obtain ⟨q1, q2⟩ := q
    intro h1 h2
    cases h1 with
    | ok h => exact ⟨.ok h, h2⟩
    | error e =>
      simp only
      split
      · exact ⟨.ok rfl, h2⟩
      · exact ⟨.error e, h2⟩

/-! ## Storing -/

theorem six_typed {V : Env} {a n : Str} (g : Good V a n) (u : Str) (x : Assoc) :
    V.engine.colsTyped (assocDef V.driver.backend)
      [t!"server_url", t!"handle", t!"secret", t!"issued", t!"lifetime", t!"assoc_type"]
      [.bytes (Utf8.encode u), .bytes (Utf8.encode x.handle), blobEncode V.driver.backend x.secret, .int x.issued,
        .int x.lifetime, .bytes (Utf8.encode x.assocType)] = true := by
  simp [Engine.colsTyped, TableDef.typeOf, assocDef, Dict.get?, accepts_int, g.accepts_url, g.accepts_bytes, g.accepts_blob]

theorem blob_cell (B : Backend) (s : Bytes) : (blobEncode B s).cell = .bytes s := by
  unfold blobEncode; split <;> rfl

theorem blob_toBytes (B : Backend) (s : Bytes) : toBytes (blobEncode B s) = blobEncode B s := by
  unfold blobEncode; split <;> rfl

theorem six_row (B : Backend) (u : Str) (x : Assoc) :
    newRow (assocDef B) [t!"server_url", t!"handle", t!"secret", t!"issued", t!"lifetime", t!"assoc_type"]
      [.bytes (Utf8.encode u), .bytes (Utf8.encode x.handle), blobEncode B x.secret, .int x.issued,
        .int x.lifetime, .bytes (Utf8.encode x.assocType)] = some (assocRow (u, x)) := by
  have := blob_cell B x.secret
  show some [_, _, (blobEncode B x.secret).cell, _, _, _] = _
  rw [this]
  rfl

theorem checks_ok {B : Backend} {u : Str} {x : Assoc} (h : ShortSecret B x) :
    (assocDef B).checksOk (assocRow (u, x)) = true := by
  unfold TableDef.checksOk
  by_cases hB : B = .postgres
  · subst hB
    show (([(t!"secret", 128)] : List (Str × Nat)).all _) = true
    simp only [List.all_cons, List.all_nil, Bool.and_true, cell_secret]
    simpa using h rfl
  · simp [assocDef, hB]

theorem clash_any (B : Backend) (l : List (Str × Assoc)) (u : Str) (x : Assoc) :
    (l.map assocRow).any ((assocDef B).clash (assocRow (u, x))) = l.any (sameKey B u x.handle) := by
  rw [List.any_map]; congr 1; funext k; exact assoc_clash _ _ k

theorem clash_filter (B : Backend) (l : List (Str × Assoc)) (u : Str) (x : Assoc) :
    (l.map assocRow).filter (fun r => !(assocDef B).clash (assocRow (u, x)) r) =
      (l.filter fun r => !sameKey B u x.handle r).map assocRow := by
  rw [List.filter_map]; congr 2; funext k; simp only [Function.comp, assoc_clash]

theorem insert_assoc {V : Env} {a n : Str} (g : Good V a n) {sql : Str} (u : Str) (x : Assoc) (replace : Bool)
    {cols : Option (List Str)}
    (hcols : insertCols (assocDef V.driver.backend) cols =
      [t!"server_url", t!"handle", t!"secret", t!"issued", t!"lifetime", t!"assoc_type"])
    (hp : parse (styleOf V.driver.backend) sql = some (.insert replace a cols 6)) (hs : ShortSecret V.driver.backend x)
    (hB : replace = false → V.driver.backend = .postgres) :
    StmtSim V a n o sql [.bytes (Utf8.encode u), .bytes (Utf8.encode x.handle), blobEncode V.driver.backend x.secret,
        .int x.issued, .int x.lifetime, .bytes (Utf8.encode x.assocType)]
      (if replace then replaceInto V.driver.backend u x else insertInto V.driver.backend u x) := by
  intro ts d hr
  rw [exec_assoc g.toNamed hr hp rfl (by simp)]
  unfold Table.run
  simp only [hcols, six_typed g u x, six_row, List.length_cons, List.length_nil, ne_eq, not_true_eq_false, Bool.not_true,
    Bool.false_eq_true, or_self, if_false]
  unfold Table.insert
  simp only [checks_ok hs, Bool.not_true, Bool.false_eq_true, if_false, clash_any, clash_filter]
  cases replace with
  | true =>
    simp only [if_true]
    refine .ok ⟨?_, rfl⟩
    have := hr.setAssocs g.toNamed (d.assocs.filter (fun r => !sameKey V.driver.backend u x.handle r) ++ [(u, x)])
    simpa using this
  | false =>
    simp only [Bool.false_eq_true, if_false]
    unfold insertInto
    split
    · rw [g.notUnique]
      have : V.driver.notUnique = .integrityError := by simp [Driver.notUnique, hB rfl]
      rw [this]
      exact .error _
    · refine .ok ⟨?_, rfl⟩
      have := hr.setAssocs g.toNamed (d.assocs ++ [(u, x)])
      simpa using this

theorem set_row (B : Backend) (x : Assoc) (r : Str × Assoc) :
    setCols (assocDef B) [t!"secret", t!"issued", t!"lifetime", t!"assoc_type"]
      [blobEncode B x.secret, .int x.issued, .int x.lifetime, .bytes (Utf8.encode x.assocType)] (assocRow r) =
      assocRow (r.1, { x with handle := r.2.handle }) := by
  show [_, _, (blobEncode B x.secret).cell, _, _, _] = _
  rw [blob_cell]
  rfl

theorem set_typed {V : Env} {a n : Str} (g : Good V a n) (x : Assoc) :
    V.engine.colsTyped (assocDef V.driver.backend) [t!"secret", t!"issued", t!"lifetime", t!"assoc_type"]
      [blobEncode V.driver.backend x.secret, .int x.issued, .int x.lifetime, .bytes (Utf8.encode x.assocType)] = true := by
  simp [Engine.colsTyped, TableDef.typeOf, assocDef, Dict.get?, accepts_int, g.accepts_bytes, g.accepts_blob]

theorem update_assoc {V : Env} {a n : Str} (g : Good V a n) {sql : Str} (u : Str) (x : Assoc)
    (hp : parse (styleOf V.driver.backend) sql =
      some (.update a [t!"secret", t!"issued", t!"lifetime", t!"assoc_type"]
        [.eq (.col t!"server_url"), .eq (.col t!"handle")]))
    (hs : ShortSecret V.driver.backend x) :
    StmtSim V a n o sql [blobEncode V.driver.backend x.secret, .int x.issued, .int x.lifetime,
        .bytes (Utf8.encode x.assocType), .bytes (Utf8.encode u), .bytes (Utf8.encode x.handle)] (updateRow u x) := by
  intro ts d hr
  rw [exec_assoc g.toNamed hr hp rfl (by simp)]
  have ht := set_typed g x
  have hk : (assocDef V.driver.backend).keys.any (fun ks => ks.any fun k =>
      [t!"secret", t!"issued", t!"lifetime", t!"assoc_type"].contains k.col) = false := rfl
  have hset := set_row V.driver.backend x
  unfold Table.run
  simp only [List.length_cons, List.length_nil, List.take_succ_cons, List.take_zero, List.drop_succ_cons, List.drop_zero,
    ht, args_typed g u x.handle, hk, ne_eq, not_true_eq_false, Bool.not_true, Bool.false_eq_true, or_self, if_false]
  have hrows : (d.assocs.map assocRow).map (fun r =>
      if condsHold (assocDef V.driver.backend) r [.eq (.col t!"server_url"), .eq (.col t!"handle")]
          [.bytes (Utf8.encode u), .bytes (Utf8.encode x.handle)] = true
      then setCols (assocDef V.driver.backend) [t!"secret", t!"issued", t!"lifetime", t!"assoc_type"]
        [blobEncode V.driver.backend x.secret, .int x.issued, .int x.lifetime, .bytes (Utf8.encode x.assocType)] r
      else r) =
      (d.assocs.map fun r => if isRow u x.handle r then (r.1, { x with handle := r.2.handle }) else r).map assocRow := by
    rw [List.map_map, List.map_map]
    congr 1
    funext r
    simp only [Function.comp, one_iff, hset]
    split <;> rfl
  rw [hrows, (filter_rows _ _ _ _ _ fun r => one_iff _ u x.handle r).1]
  have hall : ((d.assocs.filter (isRow u x.handle)).map assocRow).all (fun r => (assocDef V.driver.backend).checksOk
      (setCols (assocDef V.driver.backend) [t!"secret", t!"issued", t!"lifetime", t!"assoc_type"]
        [blobEncode V.driver.backend x.secret, .int x.issued, .int x.lifetime, .bytes (Utf8.encode x.assocType)] r)) =
      true := by
    rw [List.all_map, List.all_eq_true]
    intro r _
    simp only [Function.comp, hset]
    exact checks_ok (u := r.1) (x := { x with handle := r.2.handle }) hs
  simp only [hall, Bool.not_true, Bool.false_eq_true, if_false]
  exact .ok ⟨hr.setAssocs g.toNamed _, by simp⟩

theorem store_sim {V : Env} {a n : Str} (g : Good V a n) (f : Fault) (u : Str) (x : Assoc)
    (hs : ShortSecret V.driver.backend x) :
    Sim V a n o Eq (storeAssociation V f u x) (txnStoreAssociation V.driver.backend f u x) := by
  obtain ⟨hw, hn⟩ := goodName_word g.goodA
  unfold storeAssociation setAssoc txnStoreAssociation
  cases hB : V.driver.backend with
  | sqlite =>
    obtain ⟨sql, hm, hp⟩ := stmt_set_assoc_sqlite g.assocs hw hn
    rw [← hB] at hm
    have hp' := hp
    rw [← hB] at hp'
    have := insert_assoc (o := o) g u x true (by rfl) hp' hs (by simp)
    rw [if_neg (by simp), if_neg (by simp)]
    refine db_simple (name := t!"set_assoc") hm ?_ f
    rw [hB] at this
    exact this
  | mysql =>
    obtain ⟨sql, hm, hp⟩ := stmt_set_assoc_mysql g.assocs hw hn
    rw [← hB] at hm
    have hp' := hp
    rw [← hB] at hp'
    have := insert_assoc (o := o) g u x true (by rfl) hp' hs (by simp)
    rw [if_neg (by simp), if_neg (by simp)]
    refine db_simple (name := t!"set_assoc") hm ?_ f
    rw [hB] at this
    exact this
  | postgres =>
    obtain ⟨sql, hm, hp⟩ := stmt_new_assoc g.assocs hw hn
    obtain ⟨sql', hm', hp''⟩ := stmt_update_assoc g.assocs hw hn
    rw [← hB] at hm hm'
    have hp1 := hp
    rw [← hB] at hp1
    have hp2 := hp''
    rw [← hB] at hp2
    have h1 := insert_assoc (o := o) g u x false (by rfl) hp1 hs (fun _ => hB)
    have h2 := update_assoc (o := o) g u x hp2 hs
    rw [hB] at h1 h2
    simp only [if_true]
    unfold postgresSetAssoc
    have := Sim.bind (o := o) (Q := @Eq Unit) (select_one g f u x.handle)
      (f := fun rows => if rows.length ≠ 0 then
          db V f t!"update_assoc" [blobEncode .postgres x.secret, .int x.issued, .int x.lifetime, .text x.assocType,
            .text u, .text x.handle]
        else db V f t!"new_assoc" [.text u, .text x.handle, blobEncode .postgres x.secret, .int x.issued,
            .int x.lifetime, .text x.assocType])
      (g := fun rows => if rows.length = 0 then SqlStore.execute f (insertInto .postgres u x)
        else SqlStore.execute f (updateRow u x)) ?_
    · have e : ∀ (k : List (List Val) → Run Unit), (do
          db V f t!"get_assoc" [.text u, .text x.handle]
          let rows ← fetchall
          k rows) = (do db V f t!"get_assoc" [.text u, .text x.handle]; fetchall) >>= k := by
        intro k
        funext c
        show Run.bind _ _ c = Run.bind (Run.bind _ _) _ c
        simp only [Run.bind]
        cases h : db V f t!"get_assoc" [.text u, .text x.handle] c with
        | mk r c' => cases r <;> rfl
      rw [e]
      exact this
    · rintro rows l rfl
      rw [List.length_map]
      by_cases h0 : l.length = 0
      · rw [if_neg (by simp [h0]), if_pos h0]
        exact db_simple (name := t!"new_assoc") hm h1 f
      · rw [if_pos h0, if_neg h0]
        exact db_simple (name := t!"update_assoc") hm' h2 f

/-! ## Finding -/

theorem rowAssoc_out (gt : Bool) (x : Assoc) :
    rowAssoc (outRow gt x) = Assoc.new x.handle x.secret x.issued x.lifetime x.assocType := by
  unfold rowAssoc outRow
  cases gt
  · simp only [Bool.false_eq_true, if_false, blobDecode, toText, toInt, Utf8.decode_encode]; rfl
  · simp only [if_true, blobDecode, toText, toInt]; rfl

theorem keepRow_sim {V : Env} {a n : Str} (g : Good V a n) (f : Fault) (s : Int) (u : Str) (x : Assoc) :
    Sim V a n o Eq (keepRow V f s u (outRow V.engine.givesText x)) (SqlStore.keepRow f s u x) := by
  unfold keepRow SqlStore.keepRow
  rw [rowAssoc_out]
  cases Assoc.new x.handle x.secret x.issued x.lifetime x.assocType with
  | error e => exact fun _ _ hr => ⟨.error e, hr⟩
  | ok y =>
    show Sim V a n o Eq (if y.getExpiresIn s == 0 then _ else _) (if y.getExpiresIn s == 0 then _ else _)
    split
    · exact Sim.bind (remove_sim g f u y.handle) fun _ _ _ => Sim.pure rfl
    · exact Sim.pure rfl

theorem keepRows_sim {V : Env} {a n : Str} (g : Good V a n) (f : Fault) (s : Int) (u : Str) (l : List Assoc) :
    Sim V a n o Eq (keepRows V f s u (l.map (outRow V.engine.givesText))) (SqlStore.keepRows f s u l) := by
  induction l with
  | nil => exact Sim.pure rfl
  | cons x l ih =>
    refine Sim.bind (keepRow_sim g f s u x) fun p q h => Sim.bind ih fun p' q' h' => ?_
    rw [h, h']
    exact Sim.pure rfl

theorem query_sim {V : Env} {a n : Str} (g : Good V a n) (f : Fault) (u : Str) (h : Option Str) :
    Sim V a n o (fun rows l => rows = l.map (outRow V.engine.givesText))
      (do queryAssoc V f u h; fetchall) (fetchRows f u h) := by
  cases h with
  | none => exact select_all g f u
  | some h => exact select_one g f u h

theorem bind_assoc (x : Run α) (y : α → Run β) (k : β → Run γ) :
    (x >>= fun a => y a >>= k) = (x >>= y) >>= k := by
  funext c
  show Run.bind _ _ c = Run.bind (Run.bind _ _) _ c
  simp only [Run.bind]
  cases x c with
  | mk r c' => cases r <;> rfl

theorem get_sim {V : Env} {a n : Str} (g : Good V a n) (f : Fault) (s : Int) (u : Str) (h : Option Str) :
    Sim V a n o Eq (getAssociation V f s u h) (txnGetAssociation f s u h) := by
  unfold getAssociation txnGetAssociation
  rw [bind_assoc]
  refine Sim.bind (query_sim g f u h) fun rows l hr => ?_
  rw [hr]
  refine Sim.bind (keepRows_sim g f s u l) fun p q h => ?_
  rw [h]
  exact Sim.ofExcept (agree_refl _)

/-! ## Calls -/

theorem body_sim {V : Env} {a n : Str} (g : Good V a n) (c : Clock) (f : Fault) (now : Nat) (op : Op)
    (hs : ShortOp V.driver.backend op) : Sim V a n o Eq (body V c f now op) (txn V.driver c f now op) := by
  cases op with
  | storeAssociation u x => exact Sim.bind (store_sim g f u x hs) fun _ _ _ => Sim.pure rfl
  | getAssociation u h => exact Sim.bind (get_sim g f _ u h) fun _ _ e => e ▸ Sim.pure rfl
  | removeAssociation u h => exact Sim.bind (remove_sim g f u h) fun _ _ e => e ▸ Sim.pure rfl
  | useNonce u t salt => exact Sim.bind (useNonce_sim g c f now u t salt) fun _ _ e => e ▸ Sim.pure rfl
  | cleanupNonces => exact Sim.bind (cleanupNonces_sim g c f now) fun _ _ e => e ▸ Sim.pure rfl
  | cleanupAssociations => exact Sim.bind (cleanupAssociations_sim g c f now) fun _ _ e => e ▸ Sim.pure rfl

/-- a store object and the database it is used with -/
structure Holds (V : Env) (a n : Str) (o : Str → Option Table) (s : State) (d : Db) : Prop where
  rep : Rep V.driver.backend a n o s.tables d
  cached : Cached V s.cache

theorem step_sim {V : Env} {a n : Str} (g : Good V a n) (c : Clock) {s : State} {d : Db} (h : Holds V a n o s d) (e : Call)
    (hs : ShortOp V.driver.backend e.op) :
    (step V c s e).2 = (SqlStore.step V.driver c d e).2 ∧
    Holds V a n o (step V c s e).1 (SqlStore.step V.driver c d e).1 := by
  obtain ⟨h1, h2⟩ := body_sim g c e.fault e.now e.op hs ⟨s.tables, 0, 0, [], s.cache, s.sent⟩ ⟨d, 0, 0⟩
    ⟨h.rep, rfl, h.cached⟩
  have h3 := agree_eq h1
  have key : (callInTransaction (body V c e.fault e.now e.op) e.commitFault s).1 =
        (SqlStore.callInTransaction (txn V.driver c e.fault e.now e.op) e.commitFault ⟨d, d⟩).1 ∧
      Holds V a n o (callInTransaction (body V c e.fault e.now e.op) e.commitFault s).2
        (SqlStore.callInTransaction (txn V.driver c e.fault e.now e.op) e.commitFault ⟨d, d⟩).2.committed := by
    unfold callInTransaction SqlStore.callInTransaction
    simp only [Conn.rollback]
    revert h2 h3
    generalize body V c e.fault e.now e.op ⟨s.tables, 0, 0, [], s.cache, s.sent⟩ = p
    generalize txn V.driver c e.fault e.now e.op ⟨d, 0, 0⟩ = q
    obtain ⟨p1, p2⟩ := p
    obtain ⟨q1, q2⟩ := q
    intro h2 h3
    cases h3
    cases p1 with
    | error x => exact ⟨rfl, h.rep, h2.cached⟩
    | ok x =>
      cases e.commitFault with
      | some y => exact ⟨rfl, h.rep, h2.cached⟩
      | none => exact ⟨rfl, h2.rep, h2.cached⟩
  have catch1 : ∀ o conn, (SqlStore.sqliteCatch V.driver.backend e.op (o, conn)).2 = conn := by
    intro o conn
    unfold SqlStore.sqliteCatch
    split
    · next heq => cases heq; split <;> rfl
    · rfl
  have catch2 : ∀ o conn, (SqlStore.sqliteCatch V.driver.backend e.op (o, conn)).1 =
      sqliteCatch V.driver.backend e.op o := by
    intro o conn
    unfold SqlStore.sqliteCatch sqliteCatch
    split
    · next hop heq =>
      cases heq
      rw [hop]
      simp only
      split <;> rfl
    · next h =>
      split
      · next u t sa hop => exact (h _ _ _ _ hop rfl).elim
      · rfl
  unfold step SqlStore.step call
  revert key
  generalize callInTransaction (body V c e.fault e.now e.op) e.commitFault s = p
  generalize SqlStore.callInTransaction (txn V.driver c e.fault e.now e.op) e.commitFault ⟨d, d⟩ = q
  obtain ⟨p1, p2⟩ := p
  obtain ⟨q1, q2⟩ := q
  rintro ⟨k1, k2⟩
  simp only at k1 k2
  rw [catch1, catch2]
  exact ⟨by rw [k1], k2⟩

theorem run_sim {V : Env} {a n : Str} (g : Good V a n) (c : Clock) {s : State} {d : Db} (h : Holds V a n o s d)
    (calls : List Call) (hs : ∀ e ∈ calls, ShortOp V.driver.backend e.op) :
    (run V c s calls).1 = (SqlStore.run V.driver c d calls).1 ∧
    Holds V a n o (run V c s calls).2 (SqlStore.run V.driver c d calls).2 := by
  induction calls generalizing s d with
  | nil => exact ⟨rfl, h⟩
  | cons e r ih =>
    obtain ⟨h1, h2⟩ := step_sim g c h e (hs e (by simp))
    obtain ⟨i1, i2⟩ := ih h2 fun e' he => hs e' (by simp [he])
    exact ⟨by simp only [run, SqlStore.run, h1, i1], i2⟩

/-! ## Creating the tables -/

theorem db_eq {V : Env} {name sql : Str} (hm : makeSQL V.driver.backend V.names (name ++ t!"_sql") = .ok sql) (f : Fault)
    (args : List Val) (c : Cursor) (hc : Cached V c.cache) :
    ∃ cache, db V f name args c = execute V f sql (args.map toBytes) { c with cache := cache } ∧ Cached V cache := by
  obtain ⟨cache, hg, h⟩ := getSQL_ok hm c hc
  refine ⟨cache, ?_, h⟩
  show Run.bind _ _ c = _
  unfold Run.bind
  rw [hg]

/-- the tables after `createTables` -/
def created (B : Backend) (a n : Str) (ts : Tables) : Tables :=
  (ts.set (lower n) ⟨nonceDef B, []⟩).set (lower a) ⟨assocDef B, []⟩

theorem create_ok {V : Env} {a n : Str} (g : Named V a n) (ts : Tables) (ha : ts.get? (lower a) = none)
    (hn0 : ts.get? (lower n) = none) :
    ∃ s, callInTransaction (createTables V fun _ => none) none ⟨ts, [], []⟩ = (.ok (), s) ∧
      Holds V a n (fun t => ts.get? t) s Db.empty := by
  obtain ⟨hw, hn⟩ := goodName_word g.goodA
  obtain ⟨hw', hn'⟩ := goodName_word g.goodN
  obtain ⟨sql1, hm1, hp1⟩ := stmt_create_nonce (B := V.driver.backend) g.nonces hw' hn'
  obtain ⟨sql2, hm2, hp2⟩ := stmt_create_assoc (B := V.driver.backend) g.assocs hw hn
  have hna : lower n ≠ lower a := Ne.symm g.apart
  have x1 : exec V.engine ts sql1 [] = .ok ⟨ts.set (lower n) ⟨nonceDef V.driver.backend, []⟩, 0, []⟩ := by
    unfold exec
    rw [g.style, hp1]
    simp [runStmt, Stmt.table, g.goodN, hn0]
  have x2 : exec V.engine (ts.set (lower n) ⟨nonceDef V.driver.backend, []⟩) sql2 [] =
      .ok ⟨created V.driver.backend a n ts, 0, []⟩ := by
    unfold exec
    rw [g.style, hp2]
    simp [runStmt, Stmt.table, g.goodA, Dict.get?_set, hna, ha, created]
  obtain ⟨c1, e1, hc1⟩ := db_eq (name := t!"create_nonce") hm1 (fun _ => none) [] ⟨ts, 0, 0, [], [], []⟩
    (by intro _ _ h; simp [Dict.get?] at h)
  obtain ⟨c2, e2, hc2⟩ := db_eq (name := t!"create_assoc") hm2 (fun _ => none) []
    ⟨ts.set (lower n) ⟨nonceDef V.driver.backend, []⟩, 1, 0, [], c1, [(sql1, [])]⟩ hc1
  simp only [execute, List.map_nil, x1] at e1
  simp only [execute, List.map_nil, x2] at e2
  have hrun : createTables V (fun _ => none) ⟨ts, 0, 0, [], [], []⟩ =
      (.ok (), ⟨created V.driver.backend a n ts, 2, 0, [], c2, [(sql1, []), (sql2, [])]⟩) := by
    show Run.bind _ _ _ = _
    unfold Run.bind
    rw [e1]
    exact e2
  refine ⟨⟨created V.driver.backend a n ts, c2, [(sql1, []), (sql2, [])]⟩, ?_, ⟨?_, ?_, ?_⟩, hc2⟩
  · unfold callInTransaction
    rw [hrun]
  · simp [created, Dict.get?_set, Db.empty]
  · simp [created, Dict.get?_set, Db.empty, g.apart]
  · intro t h1 h2
    simp only [created, Dict.get?_set, if_neg (Ne.symm h1), if_neg (Ne.symm h2)]

theorem Holds.shows {V : Env} {a n : Str} {s : State} {d : Db} {old : Tables}
    (h : Holds V a n (fun t => old.get? t) s d) : Shows a n s.tables d old where
  assocs := by simp [rowsOf, h.rep.assocs]
  nonces := by simp [rowsOf, h.rep.nonces]
  others := h.rep.others

end SqlText
