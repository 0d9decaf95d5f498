import Verif.Lemmas.MemConcKept
import Verif.Lemmas.MemConcAlone
import Verif.Lemmas.MemConcPlay
import Verif.Lemmas.MemConcPrompt
import Verif.Props.MemStore
/-! # C83: the memory store with several threads at once

The system (`Verif/Model/MemConc.lean`): any number of threads, each running operations of one memory store as
sequences of accesses to its dictionaries, interleaved in any way; time only moves forward. -/

namespace Props
open Py Association Store MemStore MemConc

/-- **C83** two calls that use up the same nonce were going on at the same time, in any execution in which the
    clock does not cross an end of the nonce's window while a call that minds is going on. -/
theorem c83_once (c : Clock) (cfg : Config) (url : Str) (t : Int) (salt : Str) (h : Prompt c t cfg) :
    cfg.returned.Pairwise fun x y => x.Accepts url t salt → y.Accepts url t salt → x.Overlaps y :=
  (once (url, t, salt) (prompt_inTime h).2).pairs

/-- **C83** so a nonce is used up at most once if there is one call with it at a time. -/
theorem c83_one_at_a_time (c : Clock) (cfg : Config) (url : Str) (t : Int) (salt : Str) (h : Prompt c t cfg)
    (hs : cfg.returned.Pairwise fun x y => x.op = .useNonce url t salt → y.op = .useNonce url t salt → ¬ x.Overlaps y) :
    (cfg.returned.filter fun x => decide (x.Accepts url t salt)).length ≤ 1 := by
  have hp := (hs.and (c83_once c cfg url t salt h)).filter fun x => decide (x.Accepts url t salt)
  have hall : ∀ x ∈ cfg.returned.filter fun x => decide (x.Accepts url t salt), x.Accepts url t salt := fun x hx => by
    simpa using (List.mem_filter.1 hx).2
  revert hp hall
  generalize (cfg.returned.filter fun x => decide (x.Accepts url t salt)) = l
  intro hp hall
  match l with
  | [] => simp
  | [_] => simp
  | x :: y :: r =>
    have hx := hall x (by simp)
    have hy := hall y (by simp)
    have := (List.pairwise_cons.1 hp).1 y (by simp)
    exact absurd (this.2 hx hy) (this.1 hx.1 hy.1)

/-- **C83** whatever happens, a lookup answers only with what somebody set out to store for that server, under
    the handle asked for. -/
theorem c83_get (c : Clock) (allowed : Config → Client → Prop) (cfg : Config) (h : Reachable c allowed cfg)
    (x : Returned) (hx : x ∈ cfg.returned) (url : Str) (handle : Option Str) (a : Assoc)
    (ho : x.op = .getAssociation url handle) (hr : x.outcome = .ok (.assoc (some a))) :
    MayAnswer cfg.started url handle a :=
  ((always h).outs x hx).2 url handle a ho hr

/-- **C83** whatever happens, storing, removing, using a nonce and looking a handle up raise nothing; looking
    for the newest association may raise RuntimeError, the cleanups that or KeyError. -/
theorem c83_raises (c : Clock) (allowed : Config → Client → Prop) (cfg : Config) (h : Reachable c allowed cfg)
    (x : Returned) (hx : x ∈ cfg.returned) (e : PyErr) (hr : x.outcome = .error e) : MayRaise x.op e :=
  ((always h).outs x hx).1 e hr

/-- **C83** an association stored for a known server is found from then on.  Let nothing be going on at some
    moment, and let some call about the server have returned.  A call that begins after that moment stores the
    association and returns; the only operation called on that server and handle since that moment is to store it
    again, and nobody ever calls `cleanupAssociations`.  Then every lookup by handle that begins later finds it. -/
theorem c83_kept (c : Clock) (allowed : Config → Client → Prop) (cfg0 cfg : Config) (h0 : Reachable c allowed cfg0)
    (hidle : ∀ i, cfg0.clients i = none) (url : Str) (a : Assoc)
    (hk : ∃ z ∈ cfg0.returned, About url z.op) (h : Steps c allowed cfg0 cfg)
    (hc : Op.cleanupAssociations ∉ cfg.started) (new : List Op) (hnew : cfg.started = new ++ cfg0.started)
    (hops : ∀ op ∈ new, Touches url a.handle op → op = .storeAssociation url a)
    (x y : Returned) (hx : x ∈ cfg.returned) (hy : y ∈ cfg.returned) (hxo : x.op = .storeAssociation url a)
    (hxb : cfg0.seq ≤ x.began) (hyo : y.op = .getAssociation url (some a.handle)) (hxy : x.ended < y.began) :
    y.outcome = .ok (.assoc (some a)) := by
  have hc0 : Op.cleanupAssociations ∉ cfg0.started := fun hm => hc (by rw [hnew]; exact List.mem_append_right _ hm)
  obtain ⟨z, hz, hzo⟩ := hk
  have hkn := (learnt url h0 hc0).outs z hz hzo
  obtain ⟨X, hX⟩ := Option.isSome_iff_exists.1 hkn
  have hs0 := (always h0).sound
  have hsX := hs0.servers url X (Dict.get?_mem _ _ _ hX)
  have hends : ∀ {cfg}, Reachable c allowed cfg → (∀ y ∈ cfg.returned, y.began < cfg.seq ∧ y.ended < cfg.seq ∧
      y.began < y.ended) ∧ ∀ i cl, cfg.clients i = some cl → cl.began < cfg.seq := by
    intro cfg h
    induction h with
    | refl => exact ⟨nofun, nofun⟩
    | step _ h2 ih =>
      cases h2 with
      | tick t hl => exact ih
      | start i op hi =>
        refine ⟨fun y hy => ?_, fun j cl hj => ?_⟩
        · obtain ⟨h1, h2, h3⟩ := ih.1 y hy
          exact ⟨Nat.lt_succ_of_lt h1, Nat.lt_succ_of_lt h2, h3⟩
        · rcases put_some hj with ⟨-, hj⟩ | ⟨-, hj⟩
          · obtain rfl := Option.some.inj hj; exact Nat.lt_succ_self _
          · exact Nat.lt_succ_of_lt (ih.2 j cl hj)
      | call i op b q k r s hi ha hp =>
        refine ⟨ih.1, fun j cl hj => ?_⟩
        rcases put_some hj with ⟨-, hj⟩ | ⟨-, hj⟩
        · obtain rfl := Option.some.inj hj; exact ih.2 i ⟨op, b, .call q k⟩ hi
        · exact ih.2 j cl hj
      | finish i op b r hi =>
        refine ⟨fun y hy => ?_, fun j cl hj => ?_⟩
        · rcases List.mem_cons.1 hy with rfl | hy
          · have := ih.2 i _ hi
            exact ⟨Nat.lt_succ_of_lt this, Nat.lt_succ_self _, this⟩
          · obtain ⟨h1, h2, h3⟩ := ih.1 y hy
            exact ⟨Nat.lt_succ_of_lt h1, Nat.lt_succ_of_lt h2, h3⟩
        · rcases put_some hj with ⟨-, hj⟩ | ⟨-, hj⟩
          · cases hj
          · exact Nat.lt_succ_of_lt (ih.2 j cl hj)
  have hkept : Kept url X a cfg0.seq cfg0 := by
    refine ⟨Nat.le_refl _, fun i cl hi => ?_, ⟨hX, fun u hu hu' => ?_, hsX.1⟩, fun i cl hi => ?_, fun w hw hn _ => ?_,
      fun w hw _ _ hn => ?_, fun w hw => ((hends h0).1 w hw).1⟩
    · rw [hidle i] at hi; cases hi
    · have := hs0.servers u X (Dict.get?_mem _ _ _ hu')
      exact hu (this.2.symm.trans hsX.2)
    · rw [hidle i] at hi; cases hi
    · exact absurd ((hends h0).1 w hw).1 (Nat.not_lt.2 hn)
    · exact absurd ((hends h0).1 w hw).1 (Nat.not_lt.2 hn)
  have := steps_kept h0 hkept h hnew fun op ho => ⟨fun hh => hc (by
    rw [hnew]; exact List.mem_append_left _ (hh ▸ ho)), hops op ho⟩
  exact this.outs y hy ⟨x, hx, hxo, hxb, hxy⟩ hyo
    (Nat.le_trans hxb (Nat.le_of_lt (Nat.lt_trans ((hends (steps_trans h0 h)).1 x hx).2.2 hxy)))

theorem alone_steps {c : Clock} {op : Op} {b i : Nat} {s s' : MemConc.State} {p : Prog Answer} {r : Outcome} {clock : Nat}
    (h : Alone clock p s r s') : ∀ {cfg : Config}, cfg.clock = clock → cfg.state = s →
    cfg.clients i = some ⟨op, b, p⟩ →
    Steps c (fun _ _ => True) cfg { cfg.put i (some ⟨op, b, .done r⟩) with state := s' } := by
  induction h with
  | done r s =>
    intro cfg h1 h2 h3
    have : cfg = { cfg.put i (some ⟨op, b, .done r⟩) with state := s } := by
      cases cfg
      simp only [Config.put, Config.mk.injEq, true_and] at *
      refine ⟨h2, ?_, trivial⟩
      funext j
      split
      · next hj => rw [hj, h3]
      · rfl
    rw [← this]; exact .refl
  | call q k s r s1 x s2 hp _ ih =>
    intro cfg h1 h2 h3
    have hst : Step c (fun _ _ => True) cfg { cfg.put i (some ⟨op, b, k r⟩) with state := s1 } :=
      .call cfg i op b q k r s1 h3 trivial (by rw [h1, h2]; exact hp)
    have := ih (cfg := { cfg.put i (some ⟨op, b, k r⟩) with state := s1 }) h1 rfl (put_self ..)
    refine steps_trans (.step .refl hst) ?_
    refine cast (congrArg _ ?_) this
    simp only [Config.put, Config.mk.injEq, true_and, and_true]
    funext j
    split <;> rfl

/-- **C83** an operation that nobody disturbs has the answer and the effect of the memory store of one thread
    (`Model/MemStore`), for which C19, C20, C21 and C24 are stated, and is one of the ways for the system to go. -/
theorem c83_alone (c : Clock) (cfg : Config) (i : Nat) (op : Op) (r : Outcome) (s : MemConc.State)
    (h : Reachable c (fun _ _ => True) cfg) (hi : cfg.clients i = none)
    (ha : Alone cfg.clock (program c op) cfg.state r s) :
    s.view = (MemStore.step c cfg.state.view (cfg.clock, op)).1 ∧
      r = .ok (MemStore.step c cfg.state.view (cfg.clock, op)).2 ∧
      Reachable c (fun _ _ => True) { cfg.put i none with
        state := s, seq := cfg.seq + 2, started := op :: cfg.started,
        returned := ⟨op, cfg.seq, cfg.seq + 1, r⟩ :: cfg.returned } := by
  have hv := alone_program (tidy h) (fun u x hx => (always h).sound.servers u x hx) ha
  refine ⟨hv.1, hv.2, ?_⟩
  have h1 := h.step (.start cfg i op hi)
  have h2 := alone_steps (c := c) (op := op) (b := cfg.seq) (i := i) ha
    (cfg := { cfg.put i (some ⟨op, cfg.seq, program c op⟩) with seq := cfg.seq + 1, started := op :: cfg.started })
    rfl rfl (put_self ..)
  have h3 := (steps_trans h1 h2).step (.finish _ i op cfg.seq r (put_self ..))
  refine cast (congrArg _ ?_) h3
  simp only [Config.put, Config.mk.injEq, true_and, and_true]
  funext j
  split <;> rfl

/-! ## Executions -/

/-- what the calls of an execution gave, in the order they returned -/
def outcomes (cfg : Config) : List (Op × Outcome) := cfg.returned.reverse.map fun x => (x.op, x.outcome)

/-- **C83** calls at the same time can both use a nonce up: both look before either has put it in. -/
theorem c83_race : ∃ cfg, Prompt clock0 5 cfg ∧
    outcomes cfg = [(.useNonce t!"http://op/" 5 t!"s", .ok (.bool true)),
      (.useNonce t!"http://op/" 5 t!"s", .ok (.bool true)),
      (.useNonce t!"http://op/" 5 t!"s", .ok (.bool false))] :=
  ⟨_, play_prompt clock0 5 5
    [.start 1 (.useNonce t!"http://op/" 5 t!"s"), .start 2 (.useNonce t!"http://op/" 5 t!"s"),
     .run 1, .run 2, .run 1, .run 2, .run 1, .run 2, .finish 1, .finish 2,
     .start 3 (.useNonce t!"http://op/" 5 t!"s"), .run 3, .run 3, .finish 3] (by decide), by decide +kernel⟩

/-- **C83** the assumption on `useNonce` is needed: held up between clock and lookup while the window ends and a
    cleanup removes the nonce, a call uses it up a second time, long after the first one returned. -/
theorem c83_held_up : ∃ cfg, Reachable clock0 (fun _ _ => True) cfg ∧
    cfg.returned.reverse = [⟨.useNonce t!"http://op/" 5 t!"s", 0, 1, .ok (.bool true)⟩,
      ⟨.cleanupNonces, 3, 4, .ok (.count 1)⟩, ⟨.useNonce t!"http://op/" 5 t!"s", 2, 5, .ok (.bool true)⟩] :=
  ⟨_, play_steps (test := fun _ _ => true) (fun _ _ _ => trivial)
    [.start 1 (.useNonce t!"http://op/" 5 t!"s"), .run 1, .run 1, .run 1, .finish 1,
     .start 2 (.useNonce t!"http://op/" 5 t!"s"), .run 2, .tick 18006000,
     .start 3 .cleanupNonces, .run 3, .run 3, .run 3, .run 3, .run 3, .finish 3,
     .run 2, .run 2, .finish 2] _, by decide +kernel⟩

/-- **C83** the assumption on `cleanupNonces` is needed too: it reads the clock when the nonce's time is still too
    far in the future, and deletes it after it was used. -/
theorem c83_held_up_cleanup : ∃ cfg, Reachable clock0 (fun _ _ => True) cfg ∧
    cfg.returned.reverse = [⟨.useNonce t!"http://op/" 18001 t!"s", 1, 2, .ok (.bool true)⟩,
      ⟨.cleanupNonces, 0, 3, .ok (.count 1)⟩, ⟨.useNonce t!"http://op/" 18001 t!"s", 4, 5, .ok (.bool true)⟩] :=
  ⟨_, play_steps (test := fun _ _ => true) (fun _ _ _ => trivial)
    [.start 3 .cleanupNonces, .run 3, .tick 1000,
     .start 1 (.useNonce t!"http://op/" 18001 t!"s"), .run 1, .run 1, .run 1, .finish 1,
     .run 3, .run 3, .run 3, .run 3, .finish 3,
     .start 2 (.useNonce t!"http://op/" 18001 t!"s"), .run 2, .run 2, .run 2, .finish 2] _, by decide +kernel⟩

/-- threads one after the other and at the same time, within the assumptions: the nonce is used up once -/
example : ∃ cfg, Prompt clock0 5 cfg ∧
    (cfg.returned.Pairwise fun x y => x.op = .useNonce t!"http://op/" 5 t!"s" →
      y.op = .useNonce t!"http://op/" 5 t!"s" → ¬ x.Overlaps y) ∧
    outcomes cfg = [(.useNonce t!"http://op/" 5 t!"s", .ok (.bool true)),
      (.useNonce t!"http://op/" 6 t!"s", .ok (.bool true)),
      (.useNonce t!"http://op/" 5 t!"s", .ok (.bool false)), (.cleanupNonces, .ok (.count 2)),
      (.useNonce t!"http://op/" 5 t!"s", .ok (.bool false))] := by
  refine ⟨_, play_prompt clock0 5 5
    [.start 1 (.useNonce t!"http://op/" 5 t!"s"), .start 2 (.useNonce t!"http://op/" 6 t!"s"),
     .run 1, .run 2, .run 1, .run 2, .run 1, .run 2, .finish 1, .finish 2,
     .start 2 (.useNonce t!"http://op/" 5 t!"s"), .run 2, .run 2, .run 2, .finish 2, .tick 18007000,
     .start 3 .cleanupNonces, .run 3, .run 3, .run 3, .run 3, .run 3, .run 3, .run 3, .finish 3,
     .start 1 (.useNonce t!"http://op/" 5 t!"s"), .run 1, .finish 1] (by decide), ?_, ?_⟩
  · simp only [Returned.Overlaps]
    decide +kernel
  · decide +kernel

def threadA : Assoc := ⟨t!"a", [1, 2], 0, 1000, t!"HMAC-SHA1"⟩
def threadB : Assoc := ⟨t!"b", [3, 4], 5, 1000, t!"HMAC-SHA1"⟩

/-- **C83** two threads that store for a server nobody has asked about yet: one of the two associations is lost. -/
theorem c83_lost : ∃ cfg, Reachable clock0 (fun _ _ => True) cfg ∧
    outcomes cfg = [(.storeAssociation t!"http://op/" threadA, .ok .nothing),
      (.storeAssociation t!"http://op/" threadB, .ok .nothing),
      (.getAssociation t!"http://op/" (some t!"a"), .ok (.assoc none)),
      (.getAssociation t!"http://op/" (some t!"b"), .ok (.assoc (some threadB)))] :=
  ⟨_, play_steps (test := fun _ _ => true) (fun _ _ _ => trivial)
    [.start 1 (.storeAssociation t!"http://op/" threadA), .start 2 (.storeAssociation t!"http://op/" threadB),
     .run 1, .run 2, .run 1, .run 1, .finish 1, .run 2, .run 2, .finish 2,
     .start 1 (.getAssociation t!"http://op/" (some t!"a")), .run 1, .run 1, .finish 1,
     .start 1 (.getAssociation t!"http://op/" (some t!"b")), .run 1, .run 1, .finish 1] _, by decide +kernel⟩

/-- **C83** a cleanup that comes at the wrong moment loses an association that was stored for a known server
    and has not expired: it finds nothing left for the server, the other thread stores, the cleanup removes
    the server. -/
theorem c83_lost_cleanup : ∃ cfg, Reachable clock0 (fun _ _ => True) cfg ∧
    outcomes cfg = [(.getAssociation t!"http://op/" (some t!"a"), .ok (.assoc none)),
      (.storeAssociation t!"http://op/" threadA, .ok .nothing), (.cleanupAssociations, .ok (.count 0)),
      (.getAssociation t!"http://op/" (some t!"a"), .ok (.assoc none))] :=
  ⟨_, play_steps (test := fun _ _ => true) (fun _ _ _ => trivial)
    [.start 1 (.getAssociation t!"http://op/" (some t!"a")), .run 1, .run 1, .run 1, .finish 1,
     .start 2 .cleanupAssociations, .run 2, .run 2, .run 2, .run 2, .run 2,
     .start 1 (.storeAssociation t!"http://op/" threadA), .run 1, .run 1, .finish 1,
     .run 2, .run 2, .finish 2,
     .start 1 (.getAssociation t!"http://op/" (some t!"a")), .run 1, .run 1, .run 1, .finish 1] _, by decide +kernel⟩

/-- **C83** exceptions do happen: RuntimeError when somebody stores while the newest association is looked for or
    uses a nonce during a cleanup, KeyError when two cleanups meet. -/
theorem c83_raised : ∃ cfg, Prompt clock0 5 cfg ∧
    outcomes cfg = [(.storeAssociation t!"http://op/" threadA, .ok .nothing),
      (.storeAssociation t!"http://op/" threadB, .ok .nothing),
      (.getAssociation t!"http://op/" none, .error .runtimeError),
      (.useNonce t!"http://op/" 5 t!"s", .ok (.bool true)), (.cleanupNonces, .error .runtimeError),
      (.cleanupNonces, .ok (.count 1)), (.cleanupNonces, .error .keyError)] :=
  ⟨_, play_prompt clock0 5 5
    [.start 1 (.storeAssociation t!"http://op/" threadA), .run 1, .run 1, .run 1, .finish 1,
     .start 2 (.getAssociation t!"http://op/" none), .run 2, .run 2, .run 2,
     .start 1 (.storeAssociation t!"http://op/" threadB), .run 1, .run 1, .finish 1, .run 2, .finish 2,
     .start 3 .cleanupNonces, .run 3, .run 3,
     .start 1 (.useNonce t!"http://op/" 5 t!"s"), .run 1, .run 1, .run 1, .finish 1, .run 3, .finish 3,
     .tick 18006000, .start 3 .cleanupNonces, .start 4 .cleanupNonces, .run 3, .run 4, .run 3, .run 4, .run 3,
     .run 4, .run 3, .run 4, .run 3, .finish 3, .run 4, .finish 4] (by decide), by decide +kernel⟩

/-- the hypotheses of `c83_kept`: the server is known when a thread stores and another one looks later, while
    a third one stores something else at the same time -/
example : ∃ cfg0 cfg, Reachable clock0 (fun _ _ => True) cfg0 ∧ (∀ i, cfg0.clients i = none) ∧
    (∃ z ∈ cfg0.returned, About t!"http://op/" z.op) ∧ Steps clock0 (fun _ _ => True) cfg0 cfg ∧
    cfg.started = [.getAssociation t!"http://op/" (some t!"a"), .storeAssociation t!"http://op/" threadA,
      .storeAssociation t!"http://op/" threadB] ++ cfg0.started ∧
    cfg.returned.reverse.drop 1 = [⟨.storeAssociation t!"http://op/" threadA, 3, 4, .ok .nothing⟩,
      ⟨.getAssociation t!"http://op/" (some t!"a"), 5, 6, .ok (.assoc (some threadA))⟩,
      ⟨.storeAssociation t!"http://op/" threadB, 2, 7, .ok .nothing⟩] ∧ cfg0.seq = 2 := by
  refine ⟨_, _, play_steps (test := fun _ _ => true) (fun _ _ _ => trivial)
    [.start 1 (.getAssociation t!"http://op/" none), .run 1, .run 1, .run 1, .run 1, .finish 1] _, ?_, ?_,
    play_steps (test := fun _ _ => true) (fun _ _ _ => trivial)
    [.start 2 (.storeAssociation t!"http://op/" threadB), .start 1 (.storeAssociation t!"http://op/" threadA),
     .run 2, .run 1, .run 1, .finish 1, .start 3 (.getAssociation t!"http://op/" (some t!"a")), .run 3, .run 2, .run 3,
     .finish 3, .finish 2] _, by decide +kernel, by decide +kernel, by decide +kernel⟩
  · intro i
    by_cases hi : i = 1
    · subst hi
      exact Option.isNone_iff_eq_none.1 (by decide +kernel)
    · rw [play_clients _ fun a ha hh => hi ?_]
      · rfl
      · simp only [List.mem_cons, List.not_mem_nil, or_false] at ha
        rcases ha with rfl | rfl | rfl | rfl | rfl | rfl <;> exact (Option.some.inj hh).symm
  · exact ⟨⟨.getAssociation t!"http://op/" none, 0, 1, .ok (.assoc none)⟩, by decide +kernel, rfl⟩

/-- an operation that nobody disturbs, in a store that has something in it -/
example : ∃ cfg, Reachable clock0 (fun _ _ => True) cfg ∧ cfg.clients 1 = none ∧
    ∃ r s, Alone cfg.clock (program clock0 .cleanupAssociations) cfg.state r s ∧ r = .ok (.count 1) := by
  have hs : ∀ cfg : Config, (runAlone cfg.clock (program clock0 .cleanupAssociations) cfg.state).map Prod.fst =
      some (.ok (.count 1)) →
      ∃ r s, Alone cfg.clock (program clock0 .cleanupAssociations) cfg.state r s ∧ r = .ok (.count 1) := fun cfg h => by
    obtain ⟨⟨r, s⟩, h1, h2⟩ := Option.map_eq_some_iff.1 h
    exact ⟨r, s, runAlone_ok h1, h2⟩
  exact ⟨_, play_steps (test := fun _ _ => true) (fun _ _ _ => trivial)
    [.start 1 (.storeAssociation t!"http://op/" threadA), .run 1, .run 1, .run 1, .finish 1,
     .start 1 (.storeAssociation t!"http://op/" threadB), .run 1, .run 1, .finish 1, .tick 1002000] _,
    Option.isNone_iff_eq_none.1 (by decide +kernel), hs _ (by decide +kernel)⟩

end Props
