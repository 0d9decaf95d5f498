import Verif.Spec.MemConc
import Verif.Lemmas.MemStore
/-! # A nonce is used once, or at the same time: the memory store with several threads -/

namespace MemConc
open Py Association Store MemStore

/-- the clock is past the nonce's window, or before it -/
def Past (c : Clock) (t : Int) (now : Nat) : Prop := t * c.tick < now - 18000 * c.tick
def Early (c : Clock) (t : Int) (now : Nat) : Prop := now + 18000 * c.tick < t * c.tick

theorem within_iff (c : Clock) (t : Int) (now : Nat) : c.within 18000 now t ↔ ¬ Past c t now ∧ ¬ Early c t now := by
  simp only [Clock.within, Past, Early]
  omega

theorem Past.mono {c : Clock} {t : Int} {a b : Nat} (h : Past c t a) (hab : a ≤ b) : Past c t b := by
  simp only [Past] at *; omega

theorem notEarly_mono {c : Clock} {t : Int} {a b : Nat} (h : ¬ Early c t a) (hab : a ≤ b) : ¬ Early c t b := by
  simp only [Early] at *; omega

/-- the nonce is there, or its time is over -/
def Spent (c : Clock) (key : NonceKey) (cfg : Config) : Prop :=
  (Dict.has cfg.state.nonces.items key = true ∨ Past c key.2.1 cfg.clock) ∧ ¬ Early c key.2.1 cfg.clock

def UsesUp (key : NonceKey) (x : Returned) : Prop := x.Accepts key.1 key.2.1 key.2.2

def After (key : NonceKey) (cfg : Config) (b : Nat) : Prop := ∀ x ∈ cfg.returned, UsesUp key x → b < x.ended

/-- When a thread gets to look for a nonce of the time `t`, that is within five hours of the clock, and when it gets to
    delete one, it is not. -/
def InTime (c : Clock) (t : Int) (cfg : Config) (cl : Client) : Prop :=
  match cl.todo with
  | .call (.hasNonce k) _ => k.2.1 = t → c.within 18000 cfg.clock t
  | .call (.delNonce k) _ => k.2.1 = t → ¬ c.within 18000 cfg.clock t
  | _ => True

def wrap (p : Prog Bool) : Prog Answer := p.bind fun b => .done (.ok (.bool b))

/-- where a thread running `useNonce` may be -/
inductive Phase (c : Clock) (key : NonceKey) (cfg : Config) (b : Nat) : Prog Answer → Prop where
  | begun : Phase c key cfg b (wrap (useNonce c key.1 key.2.1 key.2.2))
  | timed : Phase c key cfg b (wrap (checkNonce key))
  | checked (h : ¬ Early c key.2.1 cfg.clock) (h' : After key cfg b) : Phase c key cfg b (wrap (putNonce key))
  | used (h : Spent c key cfg) (h' : After key cfg b) : Phase c key cfg b (.done (.ok (.bool true)))
  | refused : Phase c key cfg b (.done (.ok (.bool false)))

structure Once (c : Clock) (key : NonceKey) (cfg : Config) : Prop where
  ends : ∀ x ∈ cfg.returned, x.began < x.ended ∧ x.ended < cfg.seq
  begins : ∀ i cl, cfg.clients i = some cl → cl.began < cfg.seq
  told : ∀ x ∈ cfg.returned, UsesUp key x → Spent c key cfg
  phase : ∀ i cl, cfg.clients i = some cl → cl.op = .useNonce key.1 key.2.1 key.2.2 →
    Phase c key cfg cl.began cl.todo
  pairs : cfg.returned.Pairwise fun x y => UsesUp key x → UsesUp key y → x.Overlaps y

theorem put_some {cfg : Config} {i j : Nat} {x : Option Client} {cl : Client}
    (h : (cfg.put i x).clients j = some cl) : (j = i ∧ x = some cl) ∨ (j ≠ i ∧ cfg.clients j = some cl) := by
  simp only [Config.put] at h
  split at h
  · next h1 => exact .inl ⟨h1, h⟩
  · next h1 => exact .inr ⟨h1, h⟩

theorem put_self (cfg : Config) (i : Nat) (x : Option Client) : (cfg.put i x).clients i = x := by simp [Config.put]

theorem has_set [DecidableEq α] (d : Dict α β) (a b : α) (v : β) :
    Dict.has (Dict.set d a v) b = true ↔ b = a ∨ Dict.has d b = true := by
  simp only [Dict.has, Dict.get?_set]
  split
  · next h => simp [h]
  · next h => simp [Ne.symm h]

theorem has_del_ne [DecidableEq α] (d : Dict α β) (hd : Dict.WF d) (a b : α) (hb : b ≠ a) :
    Dict.has (Dict.del d a) b = Dict.has d b := by
  simp [Dict.has, Dict.get?_del d hd, Ne.symm hb]

/-- dictionaries have no double keys -/
structure Tidy (s : State) : Prop where
  nonces : Dict.WF s.nonces.items
  servers : Dict.WF s.servers.items
  heap : ∀ x, Dict.WF (s.heap x).items

theorem Table.WF_set [DecidableEq α] {t : Table α β} (h : Dict.WF t.items) (a : α) (v : β) :
    Dict.WF (t.set a v).items := Dict.WF_set _ h a v

theorem Table.WF_del [DecidableEq α] {t : Table α β} (h : Dict.WF t.items) (a : α) : Dict.WF (t.del a).items := by
  unfold Table.del
  split
  · exact Dict.WF_del _ h a
  · exact h

theorem Tidy.perform {s s' : State} (h : Tidy s) {clock : Nat} {q : Call} {r : Reply q} (hp : Perform clock q s r s') :
    Tidy s' := by
  have hput : ∀ x t, Dict.WF t.items → Tidy (s.putAssocs x t) := fun x t ht => ⟨h.nonces, h.servers, fun y => by
    simp only [State.putAssocs]
    split
    · exact ht
    · exact h.heap y⟩
  cases q with
  | never => exact hp.elim
  | setNonce k => rw [hp]; exact ⟨Table.WF_set h.nonces _ _, h.servers, h.heap⟩
  | delNonce k => rw [hp.2]; exact ⟨Table.WF_del h.nonces _, h.servers, h.heap⟩
  | newServer u =>
    rw [hp.2]
    refine ⟨h.nonces, Table.WF_set h.servers _ _, fun y => ?_⟩
    show Dict.WF (if y = s.next then Table.empty else s.heap y).items
    split
    · exact Dict.WF_nil
    · exact h.heap y
  | delServer u => rw [hp.2]; exact ⟨h.nonces, Table.WF_del h.servers _, h.heap⟩
  | setAssoc x a => rw [hp]; exact hput _ _ (Table.WF_set (h.heap x) _ _)
  | delAssoc x a => rw [hp.2]; exact hput _ _ (Table.WF_del (h.heap x) _)
  | _ => rw [hp.2]; exact h

theorem tidy {c : Clock} {allowed : Config → Client → Prop} {cfg : Config} (h : Reachable c allowed cfg) :
    Tidy cfg.state := by
  induction h with
  | refl => exact ⟨Dict.WF_nil, Dict.WF_nil, fun _ => Dict.WF_nil⟩
  | step _ h' ih =>
    cases h' with
    | call i op b q k r s h1 ha hp => exact ih.perform hp
    | _ => exact ih

theorem has_nonces_perform {clock : Nat} {q : Call} {s s' : State} {r : Reply q} (ht : Tidy s)
    (hp : Perform clock q s r s') (key : NonceKey) (hq : ∀ k, q = .delNonce k → k ≠ key)
    (h : Dict.has s.nonces.items key = true) : Dict.has s'.nonces.items key = true := by
  cases q with
  | never => exact hp.elim
  | setNonce k => rw [hp]; exact (has_set _ _ _ _).2 (.inr h)
  | delNonce k =>
    rw [hp.2]
    show Dict.has (s.nonces.del k).items key = true
    unfold Table.del
    split
    · rw [has_del_ne _ ht.nonces _ _ (hq k rfl).symm]; exact h
    · exact h
  | newServer u => rw [hp.2]; exact h
  | delServer u => rw [hp.2]; exact h
  | setAssoc x a => rw [hp]; exact h
  | delAssoc x a => rw [hp.2]; exact h
  | _ => rw [hp.2]; exact h

theorem spent_call {c : Clock} {cfg : Config} {key : NonceKey} (ht : Tidy cfg.state) {i : Nat} {op : Op} {b : Nat}
    {q : Call} {k : Reply q → Prog Answer} {r : Reply q} {s : State} (cl : Option Client)
    (ha : InTime c key.2.1 cfg ⟨op, b, .call q k⟩) (hp : Perform cfg.clock q cfg.state r s) (h : Spent c key cfg) :
    Spent c key { cfg.put i cl with state := s } := by
  obtain ⟨h1, h2⟩ := h
  refine ⟨?_, h2⟩
  by_cases hq : q = .delNonce key
  · subst hq
    right
    exact Classical.not_not.1 fun hn => ha rfl ((within_iff ..).2 ⟨hn, h2⟩)
  · rcases h1 with h1 | h1
    · exact .inl (has_nonces_perform ht hp key (fun k' hk h => hq (h ▸ hk)) h1)
    · exact .inr h1

theorem once_step {c : Clock} {cfg cfg' : Config} {key : NonceKey} (ht : Tidy cfg.state) (h : Once c key cfg)
    (hs : Step c (InTime c key.2.1) cfg cfg') : Once c key cfg' := by
  cases hs with
  | tick t hl =>
    have hsp : Spent c key cfg → Spent c key { cfg with clock := t } := fun ⟨h1, h2⟩ =>
      ⟨h1.imp_right fun h => h.mono hl, notEarly_mono h2 hl⟩
    refine ⟨h.ends, h.begins, fun x hx hu => hsp (h.told x hx hu), fun i cl hi ho => ?_, h.pairs⟩
    cases cl with
    | mk op b todo =>
      have := h.phase i _ hi ho
      generalize todo = td at this ⊢
      cases this with
      | begun => exact .begun
      | timed => exact .timed
      | checked h1 h2 => exact .checked (notEarly_mono h1 hl) h2
      | used h1 h2 => exact .used (hsp h1) h2
      | refused => exact .refused
  | start i op hi =>
    refine ⟨fun x hx => ⟨(h.ends x hx).1, Nat.lt_succ_of_lt (h.ends x hx).2⟩, fun j cl hj => ?_,
      fun x hx hu => h.told x hx hu, fun j cl hj ho => ?_, h.pairs⟩
    · rcases put_some hj with ⟨-, hj⟩ | ⟨-, hj⟩
      · obtain rfl := Option.some.inj hj; exact Nat.lt_succ_self _
      · exact Nat.lt_succ_of_lt (h.begins j cl hj)
    · rcases put_some hj with ⟨-, hj⟩ | ⟨-, hj⟩
      · obtain rfl := Option.some.inj hj
        simp only at ho
        subst ho
        exact .begun
      · cases cl with
        | mk op b todo =>
          have := h.phase j _ hj ho
          generalize todo = td at this ⊢
          cases this with
          | begun => exact .begun
          | timed => exact .timed
          | checked h1 h2 => exact .checked h1 h2
          | used h1 h2 => exact .used h1 h2
          | refused => exact .refused
  | call i op b q k r s hi ha hp =>
    have hsp : ∀ cl, Spent c key cfg → Spent c key { cfg.put i cl with state := s } :=
      fun cl => spent_call ht cl ha hp
    refine ⟨h.ends, fun j cl hj => ?_, fun x hx hu => hsp _ (h.told x hx hu), fun j cl hj ho => ?_, h.pairs⟩
    · rcases put_some hj with ⟨-, hj⟩ | ⟨-, hj⟩
      · obtain rfl := Option.some.inj hj; exact h.begins i ⟨op, b, .call q k⟩ hi
      · exact h.begins j cl hj
    · rcases put_some hj with ⟨-, hj⟩ | ⟨-, hj⟩
      · obtain rfl := Option.some.inj hj
        simp only at ho
        subst ho
        have := h.phase i _ hi rfl
        simp only at this
        generalize hp' : (Prog.call q k : Prog Answer) = pr at this
        cases this with
        | begun =>
          simp only [wrap, useNonce, Prog.bind] at hp'
          injection hp' with h1 h2
          subst h1
          obtain rfl := eq_of_heq h2
          simp only
          split
          · exact .refused
          · exact .timed
        | timed =>
          simp only [wrap, checkNonce, Prog.bind] at hp'
          injection hp' with h1 h2
          subst h1
          obtain rfl := eq_of_heq h2
          have hw := (within_iff ..).1 (ha rfl)
          simp only
          split
          · exact .refused
          · next hr =>
            refine .checked hw.2 fun x hx hu => ?_
            rcases (h.told x hx hu).1 with h3 | h3
            · exact absurd (hp.1.trans h3) hr
            · exact absurd h3 hw.1
        | checked h1 h2 =>
          simp only [wrap, putNonce, Prog.bind] at hp'
          injection hp' with h3 h4
          subst h3
          obtain rfl := eq_of_heq h4
          refine .used ⟨.inl ?_, h1⟩ h2
          show Dict.has s.nonces.items key = true
          rw [hp]
          exact (has_set _ _ _ _).2 (.inl rfl)
        | used h1 h2 => cases hp'
        | refused => cases hp'
      · cases cl with
        | mk op' b' todo =>
          have := h.phase j _ hj ho
          generalize todo = td at this ⊢
          cases this with
          | begun => exact .begun
          | timed => exact .timed
          | checked h1 h2 => exact .checked h1 h2
          | used h1 h2 => exact .used (hsp _ h1) h2
          | refused => exact .refused
  | finish i op b r hi =>
    have hafter : ∀ b', b' < cfg.seq → After key cfg b' →
        After key { cfg.put i none with seq := cfg.seq + 1, returned := ⟨op, b, cfg.seq, r⟩ :: cfg.returned } b' := by
      intro b' hb h1 x hx hu
      rcases List.mem_cons.1 hx with rfl | hx
      · exact hb
      · exact h1 x hx hu
    have hnew : UsesUp key ⟨op, b, cfg.seq, r⟩ → Spent c key cfg ∧ After key cfg b := by
      rintro ⟨h1, h2⟩
      simp only at h1 h2
      subst h1 h2
      have := h.phase i _ hi rfl
      simp only at this
      generalize hp' : (Prog.done (Except.ok (Answer.bool true)) : Prog Answer) = pr at this
      cases this with
      | used h1 h2 => exact ⟨h1, h2⟩
      | refused => simp at hp'
      | _ => cases hp'
    refine ⟨fun x hx => ?_, fun j cl hj => ?_, fun x hx hu => ?_, fun j cl hj ho => ?_, ?_⟩
    · rcases List.mem_cons.1 hx with rfl | hx
      · exact ⟨h.begins i _ hi, Nat.lt_succ_self _⟩
      · exact ⟨(h.ends x hx).1, Nat.lt_succ_of_lt (h.ends x hx).2⟩
    · rcases put_some hj with ⟨-, hj⟩ | ⟨-, hj⟩
      · cases hj
      · exact Nat.lt_succ_of_lt (h.begins j cl hj)
    · rcases List.mem_cons.1 hx with rfl | hx
      · exact (hnew hu).1
      · exact h.told x hx hu
    · rcases put_some hj with ⟨-, hj⟩ | ⟨-, hj⟩
      · cases hj
      · cases cl with
        | mk op' b' todo =>
          have hb := h.begins j _ hj
          have := h.phase j _ hj ho
          generalize todo = td at this ⊢
          cases this with
          | begun => exact .begun
          | timed => exact .timed
          | checked h1 h2 => exact .checked h1 (hafter _ hb h2)
          | used h1 h2 => exact .used h1 (hafter _ hb h2)
          | refused => exact .refused
    · refine List.pairwise_cons.2 ⟨fun y hy hu hu' => ⟨(hnew hu).2 y hy hu', ?_⟩, h.pairs⟩
      exact Nat.lt_trans (h.ends y hy).1 (h.ends y hy).2

theorem once {c : Clock} {cfg : Config} (key : NonceKey) (h : Reachable c (InTime c key.2.1) cfg) : Once c key cfg := by
  induction h with
  | refl => exact ⟨nofun, nofun, nofun, nofun, .nil⟩
  | step h1 h2 ih => exact once_step (tidy h1) ih h2

end MemConc
