import Verif.Model.SqlText
import Verif.Lemmas.Py
/-! # The statements of the SQL stores, read back from their texts -/

namespace Sql
open Py

theorem isBlank_not_word {c : Char} (h : isBlank c = true) : isWordChar c = false := by
  simp only [isBlank, Bool.or_eq_true, beq_iff_eq] at h
  rcases h with ((h | h) | h) | h <;> subst h <;> decide

theorem lexGo_blank (a : Str) : ∀ (cur : Str) (b : Char) (r : Str), isBlank b = true →
    lexGo cur (a ++ b :: r) = lexGo cur a ++ lexGo [] r := by
  induction a with
  | nil => intro cur b r h; simp [lexGo, h, isBlank_not_word h]
  | cons c a ih =>
    intro cur b r h
    simp only [List.cons_append, lexGo]
    split
    · rw [ih _ _ _ h]
    · split
      · rw [ih _ _ _ h, List.append_assoc]
      · rw [ih _ _ _ h]; simp

theorem lexGo_word (w : Str) : ∀ cur : Str, w.all isWordChar = true → lexGo cur w = flush (cur ++ w) := by
  induction w with
  | nil => intro cur _; simp [lexGo]
  | cons c w ih =>
    intro cur h
    simp only [List.all_cons, Bool.and_eq_true] at h
    simp only [lexGo, h.1, if_true]
    rw [ih _ h.2]; simp

/-- a word between two blanks -/
theorem lex_between (pre name post : Str) (b c : Char) (hb : isBlank b = true) (hc : isBlank c = true)
    (hw : name.all isWordChar = true) (hn : name ≠ []) :
    lex (pre ++ b :: (name ++ c :: post)) = lex pre ++ .word name :: lex post := by
  unfold lex
  rw [lexGo_blank _ _ _ _ hb, lexGo_blank _ _ _ _ hc, lexGo_word _ _ hw]
  cases name with
  | nil => exact absurd rfl hn
  | cons x n => simp [flush]

end Sql

namespace SqlText
open Py Sql SqlStore

theorem fmt_plain (names : Dict Str Str) (pre r out : Str) (h : pre.all (· != '%') = true)
    (hr : fmtGo names .plain r = .ok out) : fmtGo names .plain (pre ++ r) = .ok (pre ++ out) := by
  induction pre with
  | nil => exact hr
  | cons c p ih =>
    simp only [List.all_cons, Bool.and_eq_true, bne_iff_ne] at h
    simp only [List.cons_append, fmtGo, h.1, if_false, ih h.2]; rfl

theorem fmt_key (names : Dict Str Str) (key r out v : Str) (hk : key.all (· != ')') = true) :
    ∀ acc : Str, names.get? (acc ++ key) = some v → fmtGo names .plain r = .ok out →
      fmtGo names (.key acc) (key ++ ')' :: 's' :: r) = .ok (v ++ out) := by
  induction key with
  | nil => intro acc hv hr; simp at hv; simp [fmtGo, hv, hr]
  | cons c k ih =>
    intro acc hv hr
    simp only [List.all_cons, Bool.and_eq_true, bne_iff_ne] at hk
    simp only [List.cons_append, fmtGo, hk.1, if_false]
    exact ih hk.2 (acc ++ [c]) (by simpa using hv) hr

/-- A statement with one table name in it: its text, and how that is read. -/
theorem statement_ok {B : Backend} {names : Dict Str Str} {name key v : Str} (st : Style) (pre post post' : Str) (b c : Char)
    {stmt : Stmt}
    (hT : (statements B).get? name = some (pre ++ b :: ('%' :: '(' :: (key ++ ')' :: 's' :: c :: post))))
    (hp : (pre ++ [b]).all (· != '%') = true) (hk : key.all (· != ')') = true) (hb : isBlank b = true) (hc : isBlank c = true)
    (hpost : fmtGo names .plain (c :: post) = .ok (c :: post')) (hv : names.get? key = some v)
    (hw : v.all isWordChar = true) (hn : v ≠ [])
    (hparse : parseToks (placeholders st (lex pre ++ .word v :: lex post')) = some stmt) :
    ∃ sql, makeSQL B names name = .ok sql ∧ parse st sql = some stmt := by
  refine ⟨pre ++ b :: (v ++ c :: post'), ?_, ?_⟩
  · unfold makeSQL format
    rw [hT]
    show fmtGo names .plain _ = _
    have : pre ++ b :: ('%' :: '(' :: (key ++ ')' :: 's' :: c :: post)) =
        (pre ++ [b]) ++ ('%' :: '(' :: (key ++ ')' :: 's' :: c :: post)) := by simp
    rw [this, fmt_plain names _ _ (v ++ c :: post') hp]
    · simp
    · simp only [fmtGo]
      exact fmt_key names key (c :: post) (c :: post') v hk [] (by simpa using hv) hpost
  · unfold parse
    rw [lex_between _ _ _ _ _ hb hc hw hn]
    exact hparse

/-- how the driver of a backend marks the places for arguments -/
def styleOf (B : Backend) : Style := if B = .sqlite then .qmark else .format

/-- the table of nonces as created -/
def nonceDef (B : Backend) : TableDef where
  cols := [(t!"server_url", if B = .mysql then .binary else .text), (t!"timestamp", .integer), (t!"salt", .text)]
  keys := [[⟨t!"server_url", if B = .mysql then some 255 else none⟩, ⟨t!"timestamp", none⟩, ⟨t!"salt", none⟩]]
  checks := []

/-- the table of associations as created -/
def assocDef (B : Backend) : TableDef where
  cols := [(t!"server_url", if B = .mysql then .binary else .text), (t!"handle", .text), (t!"secret", .binary),
    (t!"issued", .integer), (t!"lifetime", .integer), (t!"assoc_type", .text)]
  keys := [[⟨t!"server_url", if B = .mysql then some 255 else none⟩, ⟨t!"handle", none⟩]]
  checks := if B = .postgres then [(t!"secret", 128)] else []

set_option maxRecDepth 20000 in
theorem stmt_create_nonce {B : Backend} {names : Dict Str Str} {v : Str} (hv : names.get? t!"nonces" = some v)
    (hw : v.all isWordChar = true) (hn : v ≠ []) :
    ∃ sql, makeSQL B names t!"create_nonce_sql" = .ok sql ∧
      parse (styleOf B) sql = some (.create v (nonceDef B)) := by
  cases B
  · exact statement_ok .qmark t!"\n    CREATE TABLE"
        t!"(\n        server_url VARCHAR,\n        timestamp INTEGER,\n        salt CHAR(40),\n        UNIQUE(server_url, timestamp, salt)\n    );\n    "
        t!"(\n        server_url VARCHAR,\n        timestamp INTEGER,\n        salt CHAR(40),\n        UNIQUE(server_url, timestamp, salt)\n    );\n    "
        ' ' ' ' rfl rfl rfl rfl rfl rfl hv hw hn rfl
  · exact statement_ok .format t!"\n    CREATE TABLE"
        t!"(\n        server_url BLOB NOT NULL,\n        timestamp INTEGER NOT NULL,\n        salt CHAR(40) NOT NULL,\n        PRIMARY KEY (server_url(255), timestamp, salt)\n    )\n    ENGINE=InnoDB;\n    "
        t!"(\n        server_url BLOB NOT NULL,\n        timestamp INTEGER NOT NULL,\n        salt CHAR(40) NOT NULL,\n        PRIMARY KEY (server_url(255), timestamp, salt)\n    )\n    ENGINE=InnoDB;\n    "
        ' ' ' ' rfl rfl rfl rfl rfl rfl hv hw hn rfl
  · exact statement_ok .format t!"\n    CREATE TABLE"
        t!"(\n        server_url VARCHAR(2047) NOT NULL,\n        timestamp INTEGER NOT NULL,\n        salt CHAR(40) NOT NULL,\n        PRIMARY KEY (server_url, timestamp, salt)\n    );\n    "
        t!"(\n        server_url VARCHAR(2047) NOT NULL,\n        timestamp INTEGER NOT NULL,\n        salt CHAR(40) NOT NULL,\n        PRIMARY KEY (server_url, timestamp, salt)\n    );\n    "
        ' ' ' ' rfl rfl rfl rfl rfl rfl hv hw hn rfl

set_option maxRecDepth 20000 in
theorem stmt_create_assoc {B : Backend} {names : Dict Str Str} {v : Str} (hv : names.get? t!"associations" = some v)
    (hw : v.all isWordChar = true) (hn : v ≠ []) :
    ∃ sql, makeSQL B names t!"create_assoc_sql" = .ok sql ∧
      parse (styleOf B) sql = some (.create v (assocDef B)) := by
  cases B
  · exact statement_ok .qmark t!"\n    CREATE TABLE"
        t!"    (\n        server_url VARCHAR(2047),\n        handle VARCHAR(255),\n        secret BLOB(128),\n        issued INTEGER,\n        lifetime INTEGER,\n        assoc_type VARCHAR(64),\n        PRIMARY KEY (server_url, handle)\n    );\n    "
        t!"    (\n        server_url VARCHAR(2047),\n        handle VARCHAR(255),\n        secret BLOB(128),\n        issued INTEGER,\n        lifetime INTEGER,\n        assoc_type VARCHAR(64),\n        PRIMARY KEY (server_url, handle)\n    );\n    "
        ' ' '\n' rfl rfl rfl rfl rfl rfl hv hw hn rfl
  · exact statement_ok .format t!"\n    CREATE TABLE"
        t!"    (\n        server_url BLOB NOT NULL,\n        handle VARCHAR(255) NOT NULL,\n        secret BLOB NOT NULL,\n        issued INTEGER NOT NULL,\n        lifetime INTEGER NOT NULL,\n        assoc_type VARCHAR(64) NOT NULL,\n        PRIMARY KEY (server_url(255), handle)\n    )\n    ENGINE=InnoDB;\n    "
        t!"    (\n        server_url BLOB NOT NULL,\n        handle VARCHAR(255) NOT NULL,\n        secret BLOB NOT NULL,\n        issued INTEGER NOT NULL,\n        lifetime INTEGER NOT NULL,\n        assoc_type VARCHAR(64) NOT NULL,\n        PRIMARY KEY (server_url(255), handle)\n    )\n    ENGINE=InnoDB;\n    "
        ' ' '\n' rfl rfl rfl rfl rfl rfl hv hw hn rfl
  · exact statement_ok .format t!"\n    CREATE TABLE"
        t!"    (\n        server_url VARCHAR(2047) NOT NULL,\n        handle VARCHAR(255) NOT NULL,\n        secret BYTEA NOT NULL,\n        issued INTEGER NOT NULL,\n        lifetime INTEGER NOT NULL,\n        assoc_type VARCHAR(64) NOT NULL,\n        PRIMARY KEY (server_url, handle),\n        CONSTRAINT secret_length_constraint CHECK (LENGTH(secret) <= 128)\n    );\n    "
        t!"    (\n        server_url VARCHAR(2047) NOT NULL,\n        handle VARCHAR(255) NOT NULL,\n        secret BYTEA NOT NULL,\n        issued INTEGER NOT NULL,\n        lifetime INTEGER NOT NULL,\n        assoc_type VARCHAR(64) NOT NULL,\n        PRIMARY KEY (server_url, handle),\n        CONSTRAINT secret_length_constraint CHECK (LENGTH(secret) <= 128)\n    );\n    "
        ' ' '\n' rfl rfl rfl rfl rfl rfl hv hw hn rfl

set_option maxRecDepth 20000 in
theorem stmt_get_assocs {B : Backend} {names : Dict Str Str} {v : Str} (hv : names.get? t!"associations" = some v)
    (hw : v.all isWordChar = true) (hn : v ≠ []) :
    ∃ sql, makeSQL B names t!"get_assocs_sql" = .ok sql ∧
      parse (styleOf B) sql = some (.select [t!"handle", t!"secret", t!"issued", t!"lifetime", t!"assoc_type"] v [.eq (.col t!"server_url")]) := by
  cases B
  · exact statement_ok .qmark t!"SELECT handle, secret, issued, lifetime, assoc_type FROM"
        t!"WHERE server_url = ?;"
        t!"WHERE server_url = ?;"
        ' ' ' ' rfl rfl rfl rfl rfl rfl hv hw hn rfl
  · exact statement_ok .format t!"SELECT handle, secret, issued, lifetime, assoc_type FROM"
        t!"WHERE server_url = %%s;"
        t!"WHERE server_url = %s;"
        ' ' ' ' rfl rfl rfl rfl rfl rfl hv hw hn rfl
  · exact statement_ok .format t!"SELECT handle, secret, issued, lifetime, assoc_type FROM"
        t!"WHERE server_url = %%s;"
        t!"WHERE server_url = %s;"
        ' ' ' ' rfl rfl rfl rfl rfl rfl hv hw hn rfl

set_option maxRecDepth 20000 in
theorem stmt_get_assoc {B : Backend} {names : Dict Str Str} {v : Str} (hv : names.get? t!"associations" = some v)
    (hw : v.all isWordChar = true) (hn : v ≠ []) :
    ∃ sql, makeSQL B names t!"get_assoc_sql" = .ok sql ∧
      parse (styleOf B) sql = some (.select [t!"handle", t!"secret", t!"issued", t!"lifetime", t!"assoc_type"] v [.eq (.col t!"server_url"), .eq (.col t!"handle")]) := by
  cases B
  · exact statement_ok .qmark t!"SELECT handle, secret, issued, lifetime, assoc_type FROM"
        t!"WHERE server_url = ? AND handle = ?;"
        t!"WHERE server_url = ? AND handle = ?;"
        ' ' ' ' rfl rfl rfl rfl rfl rfl hv hw hn rfl
  · exact statement_ok .format t!"SELECT handle, secret, issued, lifetime, assoc_type FROM"
        t!"WHERE server_url = %%s AND handle = %%s;"
        t!"WHERE server_url = %s AND handle = %s;"
        ' ' ' ' rfl rfl rfl rfl rfl rfl hv hw hn rfl
  · exact statement_ok .format t!"SELECT handle, secret, issued, lifetime, assoc_type FROM"
        t!"WHERE server_url = %%s AND handle = %%s;"
        t!"WHERE server_url = %s AND handle = %s;"
        ' ' ' ' rfl rfl rfl rfl rfl rfl hv hw hn rfl

set_option maxRecDepth 20000 in
theorem stmt_remove_assoc {B : Backend} {names : Dict Str Str} {v : Str} (hv : names.get? t!"associations" = some v)
    (hw : v.all isWordChar = true) (hn : v ≠ []) :
    ∃ sql, makeSQL B names t!"remove_assoc_sql" = .ok sql ∧
      parse (styleOf B) sql = some (.delete v [.eq (.col t!"server_url"), .eq (.col t!"handle")]) := by
  cases B
  · exact statement_ok .qmark t!"DELETE FROM"
        t!"WHERE server_url = ? AND handle = ?;"
        t!"WHERE server_url = ? AND handle = ?;"
        ' ' ' ' rfl rfl rfl rfl rfl rfl hv hw hn rfl
  · exact statement_ok .format t!"DELETE FROM"
        t!"WHERE server_url = %%s AND handle = %%s;"
        t!"WHERE server_url = %s AND handle = %s;"
        ' ' ' ' rfl rfl rfl rfl rfl rfl hv hw hn rfl
  · exact statement_ok .format t!"DELETE FROM"
        t!"WHERE server_url = %%s AND handle = %%s;"
        t!"WHERE server_url = %s AND handle = %s;"
        ' ' ' ' rfl rfl rfl rfl rfl rfl hv hw hn rfl

set_option maxRecDepth 20000 in
theorem stmt_clean_assoc {B : Backend} {names : Dict Str Str} {v : Str} (hv : names.get? t!"associations" = some v)
    (hw : v.all isWordChar = true) (hn : v ≠ []) :
    ∃ sql, makeSQL B names t!"clean_assoc_sql" = .ok sql ∧
      parse (styleOf B) sql = some (.delete v [.lt (.add t!"issued" t!"lifetime")]) := by
  cases B
  · exact statement_ok .qmark t!"DELETE FROM"
        t!"WHERE issued + lifetime < ?;"
        t!"WHERE issued + lifetime < ?;"
        ' ' ' ' rfl rfl rfl rfl rfl rfl hv hw hn rfl
  · exact statement_ok .format t!"DELETE FROM"
        t!"WHERE issued + lifetime < %%s;"
        t!"WHERE issued + lifetime < %s;"
        ' ' ' ' rfl rfl rfl rfl rfl rfl hv hw hn rfl
  · exact statement_ok .format t!"DELETE FROM"
        t!"WHERE issued + lifetime < %%s;"
        t!"WHERE issued + lifetime < %s;"
        ' ' ' ' rfl rfl rfl rfl rfl rfl hv hw hn rfl

set_option maxRecDepth 20000 in
theorem stmt_add_nonce {B : Backend} {names : Dict Str Str} {v : Str} (hv : names.get? t!"nonces" = some v)
    (hw : v.all isWordChar = true) (hn : v ≠ []) :
    ∃ sql, makeSQL B names t!"add_nonce_sql" = .ok sql ∧
      parse (styleOf B) sql = some (.insert false v none 3) := by
  cases B
  · exact statement_ok .qmark t!"INSERT INTO"
        t!"VALUES (?, ?, ?);"
        t!"VALUES (?, ?, ?);"
        ' ' ' ' rfl rfl rfl rfl rfl rfl hv hw hn rfl
  · exact statement_ok .format t!"INSERT INTO"
        t!"VALUES (%%s, %%s, %%s);"
        t!"VALUES (%s, %s, %s);"
        ' ' ' ' rfl rfl rfl rfl rfl rfl hv hw hn rfl
  · exact statement_ok .format t!"INSERT INTO"
        t!"VALUES (%%s, %%s, %%s);"
        t!"VALUES (%s, %s, %s);"
        ' ' ' ' rfl rfl rfl rfl rfl rfl hv hw hn rfl

set_option maxRecDepth 20000 in
theorem stmt_clean_nonce {B : Backend} {names : Dict Str Str} {v : Str} (hv : names.get? t!"nonces" = some v)
    (hw : v.all isWordChar = true) (hn : v ≠ []) :
    ∃ sql, makeSQL B names t!"clean_nonce_sql" = .ok sql ∧
      parse (styleOf B) sql = some (.delete v [.lt (.col t!"timestamp")]) := by
  cases B
  · exact statement_ok .qmark t!"DELETE FROM"
        t!"WHERE timestamp < ?;"
        t!"WHERE timestamp < ?;"
        ' ' ' ' rfl rfl rfl rfl rfl rfl hv hw hn rfl
  · exact statement_ok .format t!"DELETE FROM"
        t!"WHERE timestamp < %%s;"
        t!"WHERE timestamp < %s;"
        ' ' ' ' rfl rfl rfl rfl rfl rfl hv hw hn rfl
  · exact statement_ok .format t!"DELETE FROM"
        t!"WHERE timestamp < %%s;"
        t!"WHERE timestamp < %s;"
        ' ' ' ' rfl rfl rfl rfl rfl rfl hv hw hn rfl

set_option maxRecDepth 20000 in
theorem stmt_set_assoc_sqlite {names : Dict Str Str} {v : Str} (hv : names.get? t!"associations" = some v)
    (hw : v.all isWordChar = true) (hn : v ≠ []) :
    ∃ sql, makeSQL .sqlite names t!"set_assoc_sql" = .ok sql ∧
      parse (styleOf .sqlite) sql = some (.insert true v (some [t!"server_url", t!"handle", t!"secret", t!"issued", t!"lifetime", t!"assoc_type"]) 6) := by
  exact statement_ok .qmark t!"INSERT OR REPLACE INTO"
        t!"(server_url, handle, secret, issued, lifetime, assoc_type) VALUES (?, ?, ?, ?, ?, ?);"
        t!"(server_url, handle, secret, issued, lifetime, assoc_type) VALUES (?, ?, ?, ?, ?, ?);"
        ' ' ' ' rfl rfl rfl rfl rfl rfl hv hw hn rfl

set_option maxRecDepth 20000 in
theorem stmt_set_assoc_mysql {names : Dict Str Str} {v : Str} (hv : names.get? t!"associations" = some v)
    (hw : v.all isWordChar = true) (hn : v ≠ []) :
    ∃ sql, makeSQL .mysql names t!"set_assoc_sql" = .ok sql ∧
      parse (styleOf .mysql) sql = some (.insert true v none 6) := by
  exact statement_ok .format t!"REPLACE INTO"
        t!"VALUES (%%s, %%s, %%s, %%s, %%s, %%s);"
        t!"VALUES (%s, %s, %s, %s, %s, %s);"
        ' ' ' ' rfl rfl rfl rfl rfl rfl hv hw hn rfl

set_option maxRecDepth 20000 in
theorem stmt_new_assoc {names : Dict Str Str} {v : Str} (hv : names.get? t!"associations" = some v)
    (hw : v.all isWordChar = true) (hn : v ≠ []) :
    ∃ sql, makeSQL .postgres names t!"new_assoc_sql" = .ok sql ∧
      parse (styleOf .postgres) sql = some (.insert false v none 6) := by
  exact statement_ok .format t!"INSERT INTO"
        t!"VALUES (%%s, %%s, %%s, %%s, %%s, %%s);"
        t!"VALUES (%s, %s, %s, %s, %s, %s);"
        ' ' ' ' rfl rfl rfl rfl rfl rfl hv hw hn rfl

set_option maxRecDepth 20000 in
theorem stmt_update_assoc {names : Dict Str Str} {v : Str} (hv : names.get? t!"associations" = some v)
    (hw : v.all isWordChar = true) (hn : v ≠ []) :
    ∃ sql, makeSQL .postgres names t!"update_assoc_sql" = .ok sql ∧
      parse (styleOf .postgres) sql = some (.update v [t!"secret", t!"issued", t!"lifetime", t!"assoc_type"] [.eq (.col t!"server_url"), .eq (.col t!"handle")]) := by
  exact statement_ok .format t!"UPDATE"
        t!"SET secret = %%s, issued = %%s, lifetime = %%s, assoc_type = %%s WHERE server_url = %%s AND handle = %%s;"
        t!"SET secret = %s, issued = %s, lifetime = %s, assoc_type = %s WHERE server_url = %s AND handle = %s;"
        ' ' ' ' rfl rfl rfl rfl rfl rfl hv hw hn rfl

end SqlText
