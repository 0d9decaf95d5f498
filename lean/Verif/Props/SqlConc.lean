import Verif.Lemmas.SqlConcNonce
import Verif.Lemmas.SqlConcKept
import Verif.Lemmas.SqlConcAlone
import Verif.Lemmas.SqlConcPrompt
import Verif.Props.MemStore
/-! # C81: SQL stores with several connections at once

The system (`Verif/Model/SqlConc.lean`): any number of clients, each running operations of the store as
sequences of statements on a connection of its own, interleaved in any way; statements, commits and rollbacks
may fail, clients may die anywhere, time only moves forward. -/

namespace Props
open Py Association Store SqlStore SqlConc SqlRows

/-- **C81** at most once, in any execution in which the clock does not move out of the nonce's window while a call with
    that time is going on. -/
theorem c81_once (D : Driver) (c : Clock) (cfg : Config) (url : Str) (t : Int) (salt : Str)
    (h : Spec.Prompt D c t cfg) : Spec.accepted cfg url t salt ≤ 1 :=
  (once (prompt_inTime h).2).once (url, t, salt) rfl

/-- **C81** whatever happens, no two committed associations have the same key, and no two nonces. -/
theorem c81_keys (D : Driver) (c : Clock) (allowed : Config → Client → Prop) (cfg : Config)
    (h : Reachable D c allowed cfg) :
    (cfg.db.committed.assocs.Pairwise fun a b => ¬ (D.backend.urlKey a.1 = D.backend.urlKey b.1 ∧ a.2.handle = b.2.handle)) ∧
      (cfg.db.committed.nonces.Pairwise fun a b => ¬ (D.backend.urlKey a.1 = D.backend.urlKey b.1 ∧ a.2 = b.2)) := by
  have ha := always h
  exact ⟨ha.assocs.committed.imp fun h1 h2 => h1 (Prod.ext h2.1 h2.2),
    ha.nonces.committed.imp fun h1 h2 => h1 (Prod.ext h2.1 h2.2)⟩

/-- **C81** a lookup answers only with what somebody stored for that server, under the handle asked for, and
    what had not expired when it was called. -/
theorem c81_get (D : Driver) (c : Clock) (allowed : Config → Client → Prop) (cfg : Config)
    (h : Reachable D c allowed cfg) (url : Str) (handle : Option Str) (since : Nat) (a : Assoc)
    (hr : (Op.getAssociation url handle, since, Except.ok (.assoc (some a))) ∈ cfg.returned) :
    Spec.MayAnswer c cfg.started url handle since a :=
  (always h).outs _ hr url handle a rfl rfl

/-- **C81** an association whose storing returned stays committed while it has not expired, if the only
    operation called on its server and handle is to store it again.  A transaction that has changed nothing
    itself finds it. -/
theorem c81_kept (D : Driver) (c : Clock) (allowed : Config → Client → Prop) (cfg : Config)
    (h : Reachable D c allowed cfg) (url : Str) (a : Assoc) (since : Nat) (x : Answer)
    (hr : (Op.storeAssociation url a, since, Except.ok x) ∈ cfg.returned)
    (ho : ∀ op ∈ cfg.started, Spec.Touches D.backend url a.handle op → op = .storeAssociation url a)
    (he : ¬ expired (c.seconds cfg.clock) a) :
    (url, a) ∈ cfg.db.committed.assocs ∧
      ∀ j, (∀ e ∈ cfg.db.assocs, e.ins ≠ some j ∧ e.del ≠ some j) →
        a ∈ (Query.mk url (some a.handle)).find j cfg.db ∧ a ∈ (Query.mk url none).find j cfg.db := by
  obtain ⟨e, h1, h2, h3⟩ := (kept h ⟨ho, he⟩).told ⟨since, x, hr⟩
  refine ⟨List.mem_map.2 ⟨e, List.mem_filter.2 ⟨h1, by simp [h3]⟩, h2⟩, fun j hj => ?_⟩
  have hs : e.seen j = true := seen_iff.2 ⟨.inl h3, (hj e h1).2⟩
  constructor
  · refine List.mem_map.2 ⟨e.row, List.mem_map.2 ⟨e, List.mem_filter.2 ⟨h1, ?_⟩, rfl⟩, by rw [h2]⟩
    simp [hs, h2, Query.matches, isRow]
  · refine List.mem_map.2 ⟨e.row, List.mem_map.2 ⟨e, List.mem_filter.2 ⟨h1, ?_⟩, rfl⟩, by rw [h2]⟩
    simp [hs, h2, Query.matches]

/-- **C81** reads are of committed rows: a transaction that has changed nothing sees exactly what is committed. -/
theorem c81_reads (q : Query) (db : Tables) (j : Nat) (h : ∀ e ∈ db.assocs, e.ins ≠ some j ∧ e.del ≠ some j) :
    q.find j db = (db.committed.assocs.filter q.matches).map (·.2) := by
  simp only [Query.find, SqlRows.select, Tables.committed, committed]
  rw [List.filter_map, List.filter_filter]
  congr 2
  refine List.filter_congr fun e he => ?_
  have := h e he
  have hd : (e.del != some j) = true := by simpa using this.2
  have hi : (e.ins == some j) = false := by simpa using this.1
  simp only [Entry.seen, hd, hi, Bool.or_false, Bool.and_true, Function.comp_def]
  exact Bool.and_comm ..

/-- **C81** one client alone, with nothing failing: the statements one by one have the outcome and the effect
    of the operations of `Model/SqlStore`, for which C19, C23, C24 and C38 are stated, and that is one of the
    ways for the system to go. -/
theorem c81_alone (D : Driver) (c : Clock) (cfg : Config) (i : Nat) (op : Op) (db : Db)
    (h : Reachable D c (fun _ _ => True) cfg) (hi : cfg.clients i = none) (hdb : cfg.db = Tables.of db) :
    Reachable D c (fun _ _ => True)
      { cfg.put i none with
        db := Tables.of (SqlStore.step D c db ⟨cfg.clock, op, fun _ => none, none⟩).1,
        started := op :: cfg.started,
        returned := (op, cfg.clock, (SqlStore.step D c db ⟨cfg.clock, op, fun _ => none, none⟩).2) ::
          cfg.returned } := by
  have h1 := h.step (.start cfg i op hi)
  have h2 := alone_reachable h1 (put_self ..) (by
    show alone D cfg.clock i (program D c op) cfg.db = _
    rw [hdb]
    exact alone_program c db op)
  have h3 := h2.step (.finish _ i op cfg.clock _ (put_self ..))
  refine cast (congrArg _ ?_) h3
  simp only [Config.put, Config.mk.injEq, true_and]
  exact ⟨rfl, by funext j; by_cases hj : j = i <;> simp [hj], rfl⟩

/-! ## Executions -/

/-- Three clients use the same nonce.  The first dies between INSERT and COMMIT.  The second has inserted its
    row when the third comes, which has to wait; the second's commit makes the third's INSERT fail.  Later
    the row is cleaned up, and an attempt then is refused by its time. -/
def nonceSchedule : List Act' :=
  [.start 1 (.useNonce t!"http://op/" 5 t!"s"), .run 1, .run 1, .run 1, .crash 1,
   .start 2 (.useNonce t!"http://op/" 5 t!"s"), .start 3 (.useNonce t!"http://op/" 5 t!"s"),
   .run 2, .run 3, .run 2, .run 3, .run 2, .run 3, .run 3, .run 2, .run 3, .run 3, .finish 2, .finish 3,
   .tick 18006000, .start 1 .cleanupNonces, .run 1, .run 1, .run 1, .run 1, .finish 1,
   .start 1 (.useNonce t!"http://op/" 5 t!"s"), .run 1, .run 1, .run 1, .finish 1]

example (o : Bool) (B : Backend) : ∃ cfg, Spec.Prompt ⟨B, o⟩ clock0 5 cfg ∧
    cfg.returned.reverse = [(.useNonce t!"http://op/" 5 t!"s", 0, .ok (.bool true)),
      (.useNonce t!"http://op/" 5 t!"s", 0, .ok (.bool false)), (.cleanupNonces, 18006000, .ok (.count 1)),
      (.useNonce t!"http://op/" 5 t!"s", 18006000, .ok (.bool false))] :=
  ⟨_, play_prompt _ clock0 5 4 nonceSchedule (by decide), by
    cases o <;> cases B <;> decide +kernel⟩

/-- **C81** the assumption is needed: a client that is held up between clock and INSERT while the window ends
    and a cleanup removes the row has the nonce accepted a second time. -/
theorem c81_held_up (D : Driver) : ∃ cfg, Reachable D clock0 (fun _ _ => True) cfg ∧
    Spec.accepted cfg t!"http://op/" 5 t!"s" = 2 :=
  ⟨_, play_reachable (test := fun _ _ => true) (fun _ _ _ => trivial)
    [.start 1 (.useNonce t!"http://op/" 5 t!"s"), .run 1, .run 1,
     .start 2 (.useNonce t!"http://op/" 5 t!"s"), .run 2, .run 2, .run 2, .run 2, .finish 2,
     .tick 18006000, .start 3 .cleanupNonces, .run 3, .run 3, .run 3, .run 3, .finish 3,
     .run 1, .run 1, .finish 1], by
    obtain ⟨B, o⟩ := D
    cases o <;> cases B <;> decide +kernel⟩

/-- **C81** a nonce can be used up though nobody was told so: the commit was made and the client did not hear
    of it. -/
theorem c81_unheard (D : Driver) : ∃ cfg, Spec.Prompt D clock0 5 cfg ∧
    cfg.returned.reverse = [(.useNonce t!"http://op/" 5 t!"s", 0, .error (.operationalError false)),
      (.useNonce t!"http://op/" 5 t!"s", 0, .ok (.bool false))] :=
  ⟨_, play_prompt _ clock0 5 4
    [.start 1 (.useNonce t!"http://op/" 5 t!"s"), .run 1, .run 1, .run 1, .unheard 1 (.operationalError false), .finish 1,
     .start 1 (.useNonce t!"http://op/" 5 t!"s"), .run 1, .run 1, .run 1, .run 1, .run 1, .finish 1] (by decide), by
    obtain ⟨B, o⟩ := D
    cases o <;> cases B <;> decide +kernel⟩

def raceA : Assoc := ⟨t!"h", [1, 2], 0, 10, t!"HMAC-SHA1"⟩
def raceB : Assoc := ⟨t!"h", [3, 4], 100, 50, t!"HMAC-SHA1"⟩

/-- **C81** with PostgreSQL, two clients that store an association of the same server and handle at once:
    both see no row, both INSERT, and one of them raises `IntegrityError`, even if the two associations are the same. -/
theorem c81_postgres_race (o : Bool) : ∃ cfg, Reachable ⟨.postgres, o⟩ clock0 (fun _ _ => True) cfg ∧
    cfg.returned.reverse = [(.storeAssociation t!"http://op/" raceB, 0, .ok .nothing),
      (.storeAssociation t!"http://op/" raceB, 0, .error .integrityError)] :=
  ⟨_, play_reachable (test := fun _ _ => true) (fun _ _ _ => trivial)
    [.start 1 (.storeAssociation t!"http://op/" raceB), .start 2 (.storeAssociation t!"http://op/" raceB),
     .run 1, .run 1, .run 2, .run 2, .run 1, .run 2, .run 1, .run 2, .run 2, .finish 1, .finish 2], by
    cases o <;> decide +kernel⟩

/-- With the other two stores nobody raises in the same schedule. -/
example (o : Bool) (B : Backend) (hB : B ≠ .postgres) : ∃ cfg, Reachable ⟨B, o⟩ clock0 (fun _ _ => True) cfg ∧
    cfg.returned.reverse = [(.storeAssociation t!"http://op/" raceB, 0, .ok .nothing),
      (.storeAssociation t!"http://op/" raceB, 0, .ok .nothing)] ∧
    cfg.db.committed.assocs = [(t!"http://op/", raceB)] :=
  ⟨_, play_reachable (test := fun _ _ => true) (fun _ _ _ => trivial)
    [.start 1 (.storeAssociation t!"http://op/" raceB), .start 2 (.storeAssociation t!"http://op/" raceB),
     .run 1, .run 2, .run 1, .run 2, .run 1, .run 2, .run 2, .finish 1, .finish 2], by
    cases o <;> cases B <;> first | exact absurd rfl hB | decide +kernel⟩

/-- **C81** with PostgreSQL storing can return without having stored anything: the client finds a row of that
    handle, another cleans the row up since it has expired, and the UPDATE changes no row. -/
theorem c81_postgres_lost (o : Bool) : ∃ cfg, Reachable ⟨.postgres, o⟩ clock0 (fun _ _ => True) cfg ∧
    cfg.returned.reverse = [(.storeAssociation t!"http://op/" raceA, 0, .ok .nothing),
      (.cleanupAssociations, 100000, .ok (.count 1)),
      (.storeAssociation t!"http://op/" raceB, 100000, .ok .nothing),
      (.getAssociation t!"http://op/" (some t!"h"), 100000, .ok (.assoc none))] ∧
    ¬ expired (clock0.seconds cfg.clock) raceB ∧ cfg.db.committed.assocs = [] :=
  ⟨_, play_reachable (test := fun _ _ => true) (fun _ _ _ => trivial)
    [.start 1 (.storeAssociation t!"http://op/" raceA), .run 1, .run 1, .run 1, .run 1, .finish 1, .tick 100000,
     .start 1 (.storeAssociation t!"http://op/" raceB), .run 1, .run 1,
     .start 2 .cleanupAssociations, .run 2, .run 2, .run 2, .run 2, .finish 2,
     .run 1, .run 1, .finish 1,
     .start 1 (.getAssociation t!"http://op/" (some t!"h")), .run 1, .run 1, .run 1, .finish 1], by
    cases o <;> decide +kernel⟩

instance (B : Backend) (url handle : Str) (op : Op) : Decidable (Spec.Touches B url handle op) := by
  cases op <;> unfold Spec.Touches <;> infer_instance

/-- `c81_get` and `c81_kept`: two servers' associations are stored at once, one client's statement fails and
    it tries again, and both are found while a third client cleans up. -/
example (o : Bool) (B : Backend) : ∃ cfg, Reachable ⟨B, o⟩ clock0 (fun _ _ => True) cfg ∧
    (Op.storeAssociation t!"http://op/" raceB, 0, Except.ok .nothing) ∈ cfg.returned ∧
    (Op.getAssociation t!"http://op/" none, 120000, Except.ok (.assoc (some raceB))) ∈ cfg.returned ∧
    (Op.cleanupAssociations, 120000, Except.ok (.count 1)) ∈ cfg.returned ∧
    ¬ expired (clock0.seconds cfg.clock) raceB ∧
    ∀ op ∈ cfg.started, Spec.Touches B t!"http://op/" raceB.handle op → op = .storeAssociation t!"http://op/" raceB :=
  ⟨_, play_reachable (test := fun _ _ => true) (fun _ _ _ => trivial)
    [.start 1 (.storeAssociation t!"http://op/" raceB), .start 2 (.storeAssociation t!"http://other/" raceA),
     .run 1, .run 2, .run 1, .run 2, .fail 2 (.operationalError false), .run 1, .run 2, .finish 2, .run 1, .finish 1,
     .start 2 (.storeAssociation t!"http://other/" raceA), .run 2, .run 2, .run 2, .run 2, .finish 2,
     .start 4 (.storeAssociation t!"http://op/" raceB), .run 4, .run 4, .run 4,
     .tick 120000, .start 3 .cleanupAssociations, .start 1 (.getAssociation t!"http://op/" none),
     .run 3, .run 1, .run 3, .run 1, .run 1, .run 3, .run 1, .run 3, .run 4, .run 3, .finish 3, .finish 1, .finish 4,
     .run 3, .run 3, .run 3, .finish 3], by
    cases o <;> cases B <;> decide +kernel⟩

end Props
