import Verif.Spec.MemConc
/-! # Playing a schedule of several threads of a memory store

To exhibit concrete executions, driven by a list of actions. -/

namespace MemConc
open Py Association Store MemStore

inductive Act where
  | tick (t : Nat)
  | start (i : Nat) (op : Op)
  /-- the next access of thread `i` -/
  | run (i : Nat)
  | finish (i : Nat)

/-- one way for an iterator to go on -/
def Table.nextOf {α β : Type} [DecidableEq α] (t : Table α β) (it : Iter) : Except PyErr (Option (α × β)) :=
  if t.stamp = it.stamp then .ok t.items[it.pos]? else .error .runtimeError

theorem Table.nextOf_ok {α β : Type} [DecidableEq α] (t : Table α β) (it : Iter) : t.Next it (t.nextOf it) := by
  unfold Table.nextOf
  split
  · next h => exact .same h
  · next h =>
    by_cases hs : t.items.length = it.size
    · exact .other _ h hs nofun fun e he => (Except.error.inj he).symm
    · exact .size hs

/-- one way for an access to go -/
def exec (clock : Nat) : (q : Call) → State → Option (Reply q × State)
  | .never, _ => none
  | .time, s => some (clock, s)
  | .hasNonce k, s => some (Dict.has s.nonces.items k, s)
  | .setNonce k, s => some ((), { s with nonces := s.nonces.set k () })
  | .delNonce k, s => some (Dict.has s.nonces.items k, { s with nonces := s.nonces.del k })
  | .iterNonces, s => some ((s.nonces.iter, s.nonces.items.length + 1), s)
  | .nextNonce it, s => some (s.nonces.nextOf it, s)
  | .getServer url, s => some (Dict.get? s.servers.items url, s)
  | .newServer url, s => some (s.next, { s with
      servers := s.servers.set url s.next
      heap := fun y => if y = s.next then .empty else s.heap y
      next := s.next + 1
      owner := fun y => if y = s.next then url else s.owner y })
  | .delServer url, s => some (Dict.has s.servers.items url, { s with servers := s.servers.del url })
  | .iterServers, s => some ((s.servers.iter, s.servers.items.length + 1), s)
  | .nextServer it, s => some (s.servers.nextOf it, s)
  | .getAssoc x h, s => some (Dict.get? (s.heap x).items h, s)
  | .setAssoc x a, s => some ((), s.putAssocs x ((s.heap x).set a.handle a))
  | .delAssoc x h, s => some (Dict.has (s.heap x).items h, s.putAssocs x ((s.heap x).del h))
  | .iterAssocs x, s => some (((s.heap x).iter, (s.heap x).items.length + 1), s)
  | .nextAssoc x it, s => some ((s.heap x).nextOf it, s)
  | .sizeAssocs x, s => some ((s.heap x).items.length, s)

theorem exec_perform {clock : Nat} {q : Call} {s s' : State} {r : Reply q} (h : exec clock q s = some (r, s')) :
    Perform clock q s r s' := by
  cases q
  case never => cases h
  all_goals
    obtain ⟨rfl, rfl⟩ := Prod.mk.inj (Option.some.inj h)
  case nextNonce it => exact ⟨Table.nextOf_ok _ _, rfl⟩
  case nextServer it => exact ⟨Table.nextOf_ok _ _, rfl⟩
  case nextAssoc x it => exact ⟨Table.nextOf_ok _ _, rfl⟩
  case setNonce k => rfl
  case setAssoc x a => rfl
  all_goals exact ⟨rfl, rfl⟩

def runClient (test : Config → Client → Bool) (cfg : Config) (i : Nat) : Option Client → Config
  | some ⟨op, b, .call q k⟩ =>
    if test cfg ⟨op, b, .call q k⟩ then
      match exec cfg.clock q cfg.state with
      | some (r, s) => { cfg.put i (some ⟨op, b, k r⟩) with state := s }
      | none => cfg
    else cfg
  | _ => cfg

def finishClient (cfg : Config) (i : Nat) : Option Client → Config
  | some ⟨op, b, .done r⟩ =>
    { cfg.put i none with seq := cfg.seq + 1, returned := ⟨op, b, cfg.seq, r⟩ :: cfg.returned }
  | _ => cfg

/-- one action; an action that is not possible does nothing -/
def play (c : Clock) (test : Config → Client → Bool) (cfg : Config) : Act → Config
  | .tick t => if cfg.clock ≤ t then { cfg with clock := t } else cfg
  | .start i op => if (cfg.clients i).isNone then
      { cfg.put i (some ⟨op, cfg.seq, program c op⟩) with seq := cfg.seq + 1, started := op :: cfg.started } else cfg
  | .run i => runClient test cfg i (cfg.clients i)
  | .finish i => finishClient cfg i (cfg.clients i)

theorem play_steps {c : Clock} {test : Config → Client → Bool} {allowed : Config → Client → Prop}
    (ht : ∀ cfg cl, test cfg cl = true → allowed cfg cl) (acts : List Act) (cfg0 : Config) :
    Steps c allowed cfg0 (acts.foldl (play c test) cfg0) := by
  suffices h : ∀ cfg, Steps c allowed cfg0 cfg → Steps c allowed cfg0 (acts.foldl (play c test) cfg) from h _ .refl
  induction acts with
  | nil => exact fun cfg h => h
  | cons a r ih =>
    intro cfg h
    apply ih
    cases a with
    | tick t =>
      simp only [play]
      split
      · next hl => exact .step h (.tick cfg t hl)
      · exact h
    | start i op =>
      simp only [play]
      split
      · next hl => exact .step h (.start cfg i op (by simpa using hl))
      · exact h
    | run i =>
      simp only [play]
      cases hp : cfg.clients i with
      | none => exact h
      | some p =>
        obtain ⟨op, b, q⟩ := p
        cases q with
        | done r => exact h
        | call q k =>
          simp only [runClient]
          split
          · next hl =>
            split
            · next r s hx => exact .step h (.call cfg i op b q k r s hp (ht _ _ hl) (exec_perform hx))
            · exact h
          · exact h
    | finish i =>
      simp only [play]
      cases hp : cfg.clients i with
      | none => exact h
      | some p =>
        obtain ⟨op, b, q⟩ := p
        cases q with
        | done r => exact .step h (.finish cfg i op b r hp)
        | _ => exact h

def Act.client : Act → Option Nat
  | .tick _ => none
  | .start i _ => some i
  | .run i => some i
  | .finish i => some i

/-- the other threads are where they were -/
theorem play_clients {c : Clock} {test : Config → Client → Bool} {j : Nat} (acts : List Act)
    (h : ∀ a ∈ acts, a.client ≠ some j) : ∀ cfg : Config, (acts.foldl (play c test) cfg).clients j = cfg.clients j := by
  induction acts with
  | nil => exact fun cfg => rfl
  | cons a r ih =>
    intro cfg
    rw [List.foldl_cons, ih (fun a ha => h a (List.mem_cons_of_mem _ ha))]
    have hj := h a (List.mem_cons_self ..)
    cases a with
    | tick t => simp only [play]; split <;> rfl
    | start i op =>
      have : j ≠ i := fun hh => hj (hh ▸ rfl)
      simp only [play]; split
      · simp [Config.put, this]
      · rfl
    | run i =>
      have : j ≠ i := fun hh => hj (hh ▸ rfl)
      simp only [play, runClient]
      split
      · split
        · split
          · simp [Config.put, this]
          · rfl
        · rfl
      · rfl
    | finish i =>
      have : j ≠ i := fun hh => hj (hh ▸ rfl)
      simp only [play, finishClient]
      split
      · simp [Config.put, this]
      · rfl

/-- an operation without disturbance -/
def runAlone (clock : Nat) : Prog α → State → Option (Except PyErr α × State)
  | .done r, s => some (r, s)
  | .call q k, s => match exec clock q s with
    | some (r, s') => runAlone clock (k r) s'
    | none => none

theorem runAlone_ok {clock : Nat} {p : Prog α} : ∀ {s s' : State} {r : Except PyErr α},
    runAlone clock p s = some (r, s') → Alone clock p s r s' := by
  induction p with
  | done r =>
    intro s s' r' h
    obtain ⟨rfl, rfl⟩ := Prod.mk.inj (Option.some.inj h)
    exact .done _ _
  | call q k ih =>
    intro s s' r' h
    simp only [runAlone] at h
    split at h
    · next r1 s1 hx => exact .call _ _ _ _ _ _ _ (exec_perform hx) (ih _ h)
    · cases h

/-- as `play`, but the clock only moves if it does not move into the five hours around `t`, nor out of them, while one
    of the first `n` threads minds -/
def playPrompt (c : Clock) (t : Int) (n : Nat) (cfg : Config) : Act → Config
  | .tick now =>
    if (List.range n).all (fun i => match cfg.clients i with
        | some cl => !decide (Minds t cl.op) || decide (c.within 18000 cfg.clock t ↔ c.within 18000 now t)
        | none => true) then play c (fun _ _ => true) cfg (.tick now) else cfg
  | a => play c (fun _ _ => true) cfg a

theorem play_step (c : Clock) (cfg : Config) (a : Act) :
    play c (fun _ _ => true) cfg a = cfg ∨ Step c (fun _ _ => True) cfg (play c (fun _ _ => true) cfg a) := by
  cases a with
  | tick t =>
    simp only [play]
    split
    · next hl => exact .inr (.tick cfg t hl)
    · exact .inl rfl
  | start i op =>
    simp only [play]
    split
    · next hl => exact .inr (.start cfg i op (by simpa using hl))
    · exact .inl rfl
  | run i =>
    simp only [play]
    cases hp : cfg.clients i with
    | none => exact .inl rfl
    | some p =>
      obtain ⟨op, b, q⟩ := p
      cases q with
      | done r => exact .inl rfl
      | call q k =>
        simp only [runClient, if_true]
        split
        · next r s hx => exact .inr (.call cfg i op b q k r s hp trivial (exec_perform hx))
        · exact .inl rfl
  | finish i =>
    simp only [play]
    cases hp : cfg.clients i with
    | none => exact .inl rfl
    | some p =>
      obtain ⟨op, b, q⟩ := p
      cases q with
      | done r => exact .inr (.finish cfg i op b r hp)
      | _ => exact .inl rfl

theorem play_clock (c : Clock) (cfg : Config) (a : Act) (h : ∀ t, a ≠ .tick t) :
    (play c (fun _ _ => true) cfg a).clock = cfg.clock := by
  cases a with
  | tick t => exact absurd rfl (h t)
  | start i op => simp only [play]; split <;> rfl
  | run i => simp only [play, runClient, if_true]; split <;> (try split) <;> rfl
  | finish i => simp only [play, finishClient]; split <;> rfl

theorem play_prompt (c : Clock) (t : Int) (n : Nat) (acts : List Act)
    (hb : acts.all (fun a => a.client.all fun i => decide (i < n)) = true) :
    Prompt c t (acts.foldl (playPrompt c t n) Config.init) := by
  have hn : ∀ a ∈ acts, ∀ i, a.client = some i → i < n := fun a ha i hi => by
    have := List.all_eq_true.1 hb a ha
    rw [hi] at this
    simpa using this
  clear hb
  suffices h : ∀ cfg, Prompt c t cfg → (∀ i, n ≤ i → cfg.clients i = none) →
      Prompt c t (acts.foldl (playPrompt c t n) cfg) from h _ .init fun _ _ => rfl
  induction acts with
  | nil => exact fun cfg h _ => h
  | cons a r ih =>
    intro cfg h hidle
    have hstep : Prompt c t (playPrompt c t n cfg a) := by
      have hother : (∀ now, a ≠ .tick now) → Prompt c t (play c (fun _ _ => true) cfg a) := fun ha => by
        rcases play_step c cfg a with he | hs
        · rw [he]; exact h
        · exact .step h hs fun i cl _ _ => by rw [play_clock c cfg a ha]
      cases a with
      | tick now =>
        simp only [playPrompt]
        split
        · next hall =>
          rcases play_step c cfg (.tick now) with he | hs
          · rw [he]; exact h
          · refine .step h hs fun i cl hi hm => ?_
            have hin : i < n := Nat.lt_of_not_le fun hle => by rw [hidle i hle] at hi; cases hi
            have := List.all_eq_true.1 hall i (List.mem_range.2 hin)
            rw [hi] at this
            simp only [hm, decide_true, Bool.not_true, Bool.false_or, decide_eq_true_eq] at this
            simp only [play]
            split
            · exact this
            · exact Iff.rfl
        · exact h
      | start i op => exact hother nofun
      | run i => exact hother nofun
      | finish i => exact hother nofun
    refine ih (fun a ha => hn a (List.mem_cons_of_mem _ ha)) _ hstep fun i hi => ?_
    have hne : a.client ≠ some i := fun he => absurd (hn a (List.mem_cons_self ..) i he) (Nat.not_lt.2 hi)
    have := play_clients (c := c) (test := fun _ _ => true) [a] (by simpa using hne) cfg
    simp only [List.foldl_cons, List.foldl_nil] at this
    have heq : playPrompt c t n cfg a = play c (fun _ _ => true) cfg a ∨ playPrompt c t n cfg a = cfg := by
      cases a with
      | tick now => simp only [playPrompt]; split <;> simp
      | _ => exact .inl rfl
    rcases heq with he | he <;> rw [he]
    · rw [this]; exact hidle i hi
    · exact hidle i hi

end MemConc
