import Verif.Model.SqlConc
/-! # Playing a schedule of several clients of an SQL store

To exhibit concrete executions, driven by a list of actions. -/

namespace SqlConc
open Py Association Store SqlStore SqlRows

inductive Act' where
  | tick (t : Nat)
  | start (i : Nat) (op : Op)
  /-- the next thing client `i` does, if it need not wait -/
  | run (i : Nat)
  /-- the next thing client `i` does fails -/
  | fail (i : Nat) (e : PyErr)
  /-- a commit is made and the client does not hear of it -/
  | unheard (i : Nat) (e : PyErr)
  | finish (i : Nat)
  | crash (i : Nat)

def runClient (D : Driver) (test : Config → Client → Bool) (cfg : Config) (i : Nat) : Option Client → Config
  | some ⟨op, s, .time k⟩ => cfg.put i (some ⟨op, s, k cfg.clock⟩)
  | some ⟨op, s, .query q k⟩ => cfg.put i (some ⟨op, s, k (.ok (q.find i cfg.db))⟩)
  | some ⟨op, s, .exec st k⟩ =>
    if test cfg ⟨op, s, .exec st k⟩ then
      match st.perform D i cfg.db with
      | some (r, db) => { cfg.put i (some ⟨op, s, k r⟩) with db := db }
      | none => cfg
    else cfg
  | some ⟨op, s, .rollback k⟩ => { cfg.put i (some ⟨op, s, k (.ok ())⟩) with db := cfg.db.rollback i }
  | some ⟨op, s, .commit k⟩ => { cfg.put i (some ⟨op, s, k (.ok ())⟩) with db := cfg.db.commit i }
  | _ => cfg

def failClient (cfg : Config) (i : Nat) (e : PyErr) : Option Client → Config
  | some ⟨op, s, .query _ k⟩ => { cfg.put i (some ⟨op, s, k (.error e)⟩) with db := cfg.db }
  | some ⟨op, s, .exec _ k⟩ => { cfg.put i (some ⟨op, s, k (.error e)⟩) with db := cfg.db }
  | some ⟨op, s, .rollback k⟩ => { cfg.put i (some ⟨op, s, k (.error e)⟩) with db := cfg.db }
  | some ⟨op, s, .commit k⟩ => { cfg.put i (some ⟨op, s, k (.error e)⟩) with db := cfg.db }
  | _ => cfg

def unheardClient (cfg : Config) (i : Nat) (e : PyErr) : Option Client → Config
  | some ⟨op, s, .commit k⟩ => { cfg.put i (some ⟨op, s, k (.error e)⟩) with db := cfg.db.commit i }
  | _ => cfg

def finishClient (cfg : Config) (i : Nat) : Option Client → Config
  | some ⟨op, s, .done r⟩ => { cfg.put i none with returned := (op, s, r) :: cfg.returned }
  | _ => cfg

/-- one action; an action that is not possible does nothing -/
def play (D : Driver) (c : Clock) (test : Config → Client → Bool) (cfg : Config) : Act' → Config
  | .tick t => if cfg.clock ≤ t then { cfg with clock := t } else cfg
  | .start i op => if (cfg.clients i).isNone then
      { cfg.put i (some ⟨op, cfg.clock, program D c op⟩) with started := op :: cfg.started } else cfg
  | .run i => runClient D test cfg i (cfg.clients i)
  | .fail i e => failClient cfg i e (cfg.clients i)
  | .unheard i e => unheardClient cfg i e (cfg.clients i)
  | .finish i => finishClient cfg i (cfg.clients i)
  | .crash i => { cfg.put i none with db := cfg.db.rollback i }

theorem play_reachable {D : Driver} {c : Clock} {test : Config → Client → Bool}
    {allowed : Config → Client → Prop} (ht : ∀ cfg cl, test cfg cl = true → allowed cfg cl) (acts : List Act') :
    Reachable D c allowed (acts.foldl (play D c test) Config.init) := by
  suffices h : ∀ cfg, Reachable D c allowed cfg → Reachable D c allowed (acts.foldl (play D c test) cfg) from
    h _ .init
  induction acts with
  | nil => exact fun cfg h => h
  | cons a r ih =>
    intro cfg h
    apply ih
    cases a with
    | tick t =>
      simp only [play]
      split
      · next hl => exact .step h (.tick cfg t hl)
      · exact h
    | start i op =>
      simp only [play]
      split
      · next hl => exact .step h (.start cfg i op (by simpa using hl))
      · exact h
    | run i =>
      simp only [play]
      cases hp : cfg.clients i with
      | none => exact h
      | some p =>
        obtain ⟨op, s, q⟩ := p
        cases q with
        | done r => exact h
        | time k => exact .step h (.time cfg i op s k hp)
        | query q k => exact .step h (.query cfg i op s q k hp)
        | exec st k =>
          simp only [runClient]
          split
          · next hl =>
            split
            · next r db hx => exact .step h (.exec cfg i op s st k r db hp (ht _ _ hl) hx)
            · exact h
          · exact h
        | rollback k => exact .step h (.rollback cfg i op s k hp)
        | commit k => exact .step h (.commit cfg i op s k hp)
    | fail i e =>
      simp only [play]
      cases hp : cfg.clients i with
      | none => exact h
      | some p =>
        obtain ⟨op, s, q⟩ := p
        cases q with
        | done r => exact h
        | time k => exact h
        | query q k => exact .step h (.queryFails cfg i op s q k e _ hp .same)
        | exec st k => exact .step h (.execFails cfg i op s st k e _ hp .same)
        | rollback k => exact .step h (.rollbackFails cfg i op s k e _ hp .same)
        | commit k => exact .step h (.commitFails cfg i op s k e _ hp .same)
    | unheard i e =>
      simp only [play]
      cases hp : cfg.clients i with
      | none => exact h
      | some p =>
        obtain ⟨op, s, q⟩ := p
        cases q with
        | commit k => exact .step h (.commitUnheard cfg i op s k e hp)
        | _ => exact h
    | finish i =>
      simp only [play]
      cases hp : cfg.clients i with
      | none => exact h
      | some p =>
        obtain ⟨op, s, q⟩ := p
        cases q with
        | done r => exact .step h (.finish cfg i op s r hp)
        | _ => exact h
    | crash i => exact .step h (.crash cfg i)

end SqlConc
