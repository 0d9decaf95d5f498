import Verif.Lemmas.SqlConcNonce
import Verif.Lemmas.SqlConcPlay
/-! # Clients of an SQL store that are not held up insert their row in time -/

namespace SqlConc
open Py Association Store SqlStore SqlRows Spec

theorem adding_not_never (D : Driver) (k : Key) : ¬ Never (adding D k) := fun h => h (.ok 1) (.ok ()) rfl

/-- who is about to insert a row with the time `t` is in time -/
def Careful (D : Driver) (c : Clock) (t : Int) (cfg : Config) : Prop := ∀ i cl (k : Key), k.2.1 = t →
  cfg.clients i = some cl → cl.op = .useNonce k.1 k.2.1 k.2.2 → cl.todo = adding D k → c.within 18000 cfg.clock t

/-- no step but the look at the clock leads to the insertion -/
theorem careful_put {D : Driver} {c : Clock} {t : Int} {cfg : Config} (h : Careful D c t cfg) {i : Nat} {op : Op}
    {s : Nat} {p : Prog Answer} {db : Tables}
    (hp : ∀ k : Key, k.2.1 = t → op = .useNonce k.1 k.2.1 k.2.2 → p = adding D k → c.within 18000 cfg.clock t) :
    Careful D c t { cfg.put i (some ⟨op, s, p⟩) with db := db } := by
  intro j cl k hk hj ho ht
  rcases put_some (cfg := cfg) hj with ⟨-, hj⟩ | ⟨-, hj⟩
  · obtain rfl := Option.some.inj hj
    exact hp k hk ho ht
  · exact h j cl k hk hj ho ht

theorem careful_step {D : Driver} {c : Clock} {t : Int} {cfg cfg' : Config} (h : Careful D c t cfg)
    (ho : Once D c t cfg) (h' : Step D c (fun _ _ => True) cfg cfg')
    (hw : ∀ i cl url salt, cfg.clients i = some cl → cl.op = .useNonce url t salt →
      c.within 18000 cfg.clock t → c.within 18000 cfg'.clock t) :
    Careful D c t cfg' ∧ Step D c (InTime D c t) cfg cfg' := by
  cases h' with
  | tick t' hl =>
    refine ⟨fun i cl k hk hi hop hp => ?_, .tick cfg t' hl⟩
    subst hk
    exact hw i cl _ _ hi hop (h i cl k rfl hi hop hp)
  | start i op hi =>
    refine ⟨careful_put (db := cfg.db) h fun k _ hop hp => ?_, .start cfg i op hi⟩
    subst hop
    rw [program_useNonce] at hp
    cases hp
  | time i op s k hi =>
    refine ⟨careful_put (db := cfg.db) h fun n hk hop hp => ?_, .time cfg i op s k hi⟩
    have hph := ho.phase i _ n hi hop
    simp only at hph
    generalize hq : Prog.time k = q at hph
    cases hph with
    | checking hc =>
      simp only [checking, Prog.time.injEq] at hq
      subst hq
      simp only at hp
      split at hp
      · exact absurd (hp ▸ never_false D n) (adding_not_never D n)
      · next hout =>
        rw [outside_iff, Classical.not_not, hk] at hout
        exact hout
    | never hn => subst hq; exact absurd (hp ▸ hn cfg.clock) (adding_not_never D n)
    | _ => cases hq
  | query i op s q k hi =>
    refine ⟨careful_put (db := cfg.db) h fun n hk hop hp => ?_, .query cfg i op s q k hi⟩
    have hph := ho.phase i _ n hi hop
    simp only at hph
    generalize hq : Prog.query q k = q at hph
    cases hph with
    | never hn => subst hq; exact absurd (hp ▸ hn _) (adding_not_never D n)
    | _ => cases hq
  | queryFails i op s q k e db hi hd =>
    refine ⟨careful_put h fun n hk hop hp => ?_, .queryFails cfg i op s q k e db hi hd⟩
    have hph := ho.phase i _ n hi hop
    simp only at hph
    generalize hq : Prog.query q k = q at hph
    cases hph with
    | never hn => subst hq; exact absurd (hp ▸ hn _) (adding_not_never D n)
    | _ => cases hq
  | exec i op s st k r db hi hal hx =>
    refine ⟨careful_put h fun n hk hop hp => ?_, .exec cfg i op s st k r db hi
      (fun n hk hop hp => h i _ n hk hi hop hp) hx⟩
    have hph := ho.phase i _ n hi hop
    simp only at hph
    generalize hq : Prog.exec st k = q at hph
    cases hph with
    | adding hc => exact h i _ n hk hi hop hq
    | never hn => subst hq; exact absurd (hp ▸ hn _) (adding_not_never D n)
    | _ => cases hq
  | execFails i op s st k e db hi hd =>
    refine ⟨careful_put h fun n hk hop hp => ?_, .execFails cfg i op s st k e db hi hd⟩
    have hph := ho.phase i _ n hi hop
    simp only at hph
    generalize hq : Prog.exec st k = q at hph
    cases hph with
    | adding hc => exact h i _ n hk hi hop hq
    | never hn => subst hq; exact absurd (hp ▸ hn _) (adding_not_never D n)
    | _ => cases hq
  | rollback i op s k hi =>
    refine ⟨careful_put h fun n hk hop hp => ?_, .rollback cfg i op s k hi⟩
    have hph := ho.phase i _ n hi hop
    simp only at hph
    generalize hq : Prog.rollback k = q at hph
    cases hph with
    | opening =>
      simp only [opening, Prog.rollback.injEq] at hq
      subst hq
      cases hp
    | never hn => subst hq; exact absurd (hp ▸ hn _) (adding_not_never D n)
    | _ => cases hq
  | rollbackFails i op s k e db hi hd =>
    refine ⟨careful_put h fun n hk hop hp => ?_, .rollbackFails cfg i op s k e db hi hd⟩
    have hph := ho.phase i _ n hi hop
    simp only at hph
    generalize hq : Prog.rollback k = q at hph
    cases hph with
    | opening =>
      simp only [opening, Prog.rollback.injEq] at hq
      subst hq
      cases hp
    | never hn => subst hq; exact absurd (hp ▸ hn _) (adding_not_never D n)
    | _ => cases hq
  | commit i op s k hi =>
    refine ⟨careful_put h fun n hk hop hp => ?_, .commit cfg i op s k hi⟩
    have hph := ho.phase i _ n hi hop
    simp only at hph
    generalize hq : Prog.commit k = q at hph
    cases hph with
    | answer hm =>
      simp only [answer, Prog.commit.injEq] at hq
      subst hq
      cases hp
    | never hn => subst hq; exact absurd (hp ▸ hn _) (adding_not_never D n)
    | _ => cases hq
  | commitFails i op s k e db hi hd =>
    refine ⟨careful_put h fun n hk hop hp => ?_, .commitFails cfg i op s k e db hi hd⟩
    have hph := ho.phase i _ n hi hop
    simp only at hph
    generalize hq : Prog.commit k = q at hph
    cases hph with
    | answer hm =>
      simp only [answer, Prog.commit.injEq] at hq
      subst hq
      cases hp
    | never hn => subst hq; exact absurd (hp ▸ hn _) (adding_not_never D n)
    | _ => cases hq
  | commitUnheard i op s k e hi =>
    refine ⟨careful_put h fun n hk hop hp => ?_, .commitUnheard cfg i op s k e hi⟩
    have hph := ho.phase i _ n hi hop
    simp only at hph
    generalize hq : Prog.commit k = q at hph
    cases hph with
    | answer hm =>
      simp only [answer, Prog.commit.injEq] at hq
      subst hq
      cases hp
    | never hn => subst hq; exact absurd (hp ▸ hn _) (adding_not_never D n)
    | _ => cases hq
  | finish i op s r hi =>
    refine ⟨fun j cl k hk hj hop hp => ?_, .finish cfg i op s r hi⟩
    rcases put_some (cfg := cfg) hj with ⟨-, hj⟩ | ⟨-, hj⟩
    · cases hj
    · exact h j cl k hk hj hop hp
  | crash i =>
    refine ⟨fun j cl k hk hj hop hp => ?_, .crash cfg i⟩
    rcases put_some (cfg := cfg) hj with ⟨-, hj⟩ | ⟨-, hj⟩
    · cases hj
    · exact h j cl k hk hj hop hp

theorem prompt_inTime {D : Driver} {c : Clock} {t : Int} {cfg : Config} (h : Prompt D c t cfg) :
    Careful D c t cfg ∧ Reachable D c (InTime D c t) cfg := by
  induction h with
  | init => exact ⟨nofun, .init⟩
  | step _ h' hw ih =>
    have := careful_step ih.1 (once ih.2) h' hw
    exact ⟨this.1, ih.2.step this.2⟩

/-! ## Playing -/

/-- as `play`, but the clock only moves if it does not move out of the five hours around `t` while one of the first `n`
    clients is using a nonce of that time -/
def playPrompt (D : Driver) (c : Clock) (t : Int) (n : Nat) (cfg : Config) : Act' → Config
  | .tick now =>
    if (List.range n).all (fun i => match cfg.clients i with
        | some ⟨.useNonce _ t' _, _, _⟩ =>
          !decide (t' = t) || !decide (c.within 18000 cfg.clock t) || decide (c.within 18000 now t)
        | _ => true) then play D c (fun _ _ => true) cfg (.tick now) else cfg
  | a => play D c (fun _ _ => true) cfg a

theorem play_step (D : Driver) (c : Clock) (cfg : Config) (a : Act') :
    play D c (fun _ _ => true) cfg a = cfg ∨ Step D c (fun _ _ => True) cfg (play D c (fun _ _ => true) cfg a) := by
  cases a with
  | tick t =>
    simp only [play]
    split
    · next hl => exact .inr (.tick cfg t hl)
    · exact .inl rfl
  | start i op =>
    simp only [play]
    split
    · next hl => exact .inr (.start cfg i op (by simpa using hl))
    · exact .inl rfl
  | run i =>
    simp only [play]
    cases hp : cfg.clients i with
    | none => exact .inl rfl
    | some p =>
      obtain ⟨op, s, q⟩ := p
      cases q with
      | done r => exact .inl rfl
      | time k => exact .inr (.time cfg i op s k hp)
      | query q k => exact .inr (.query cfg i op s q k hp)
      | exec st k =>
        simp only [runClient, if_true]
        split
        · next r db hx => exact .inr (.exec cfg i op s st k r db hp trivial hx)
        · exact .inl rfl
      | rollback k => exact .inr (.rollback cfg i op s k hp)
      | commit k => exact .inr (.commit cfg i op s k hp)
  | fail i e =>
    simp only [play]
    cases hp : cfg.clients i with
    | none => exact .inl rfl
    | some p =>
      obtain ⟨op, s, q⟩ := p
      cases q with
      | done r => exact .inl rfl
      | time k => exact .inl rfl
      | query q k => exact .inr (.queryFails cfg i op s q k e _ hp .same)
      | exec st k => exact .inr (.execFails cfg i op s st k e _ hp .same)
      | rollback k => exact .inr (.rollbackFails cfg i op s k e _ hp .same)
      | commit k => exact .inr (.commitFails cfg i op s k e _ hp .same)
  | unheard i e =>
    simp only [play]
    cases hp : cfg.clients i with
    | none => exact .inl rfl
    | some p =>
      obtain ⟨op, s, q⟩ := p
      cases q with
      | commit k => exact .inr (.commitUnheard cfg i op s k e hp)
      | _ => exact .inl rfl
  | finish i =>
    simp only [play]
    cases hp : cfg.clients i with
    | none => exact .inl rfl
    | some p =>
      obtain ⟨op, s, q⟩ := p
      cases q with
      | done r => exact .inr (.finish cfg i op s r hp)
      | _ => exact .inl rfl
  | crash i => exact .inr (.crash cfg i)

def Act'.client : Act' → Option Nat
  | .tick _ => none
  | .start i _ | .run i | .fail i _ | .unheard i _ | .finish i | .crash i => some i

/-- an action that is not of the clock moves neither the clock nor the other clients -/
theorem play_local (D : Driver) (c : Clock) (cfg : Config) (a : Act') (i : Nat) (h : a.client = some i) :
    (play D c (fun _ _ => true) cfg a).clock = cfg.clock ∧
      ∀ j, j ≠ i → (play D c (fun _ _ => true) cfg a).clients j = cfg.clients j := by
  cases a with
  | tick t => cases h
  | start i' op =>
    obtain rfl := Option.some.inj h
    simp only [play]
    split
    · exact ⟨rfl, fun j hj => by simp [Config.put, hj]⟩
    · exact ⟨rfl, fun _ _ => rfl⟩
  | run i' =>
    obtain rfl := Option.some.inj h
    simp only [play, runClient, if_true]
    repeat' split
    all_goals exact ⟨rfl, fun j hj => by simp [Config.put, hj]⟩
  | fail i' e =>
    obtain rfl := Option.some.inj h
    simp only [play, failClient]
    repeat' split
    all_goals exact ⟨rfl, fun j hj => by simp [Config.put, hj]⟩
  | unheard i' e =>
    obtain rfl := Option.some.inj h
    simp only [play, unheardClient]
    repeat' split
    all_goals exact ⟨rfl, fun j hj => by simp [Config.put, hj]⟩
  | finish i' =>
    obtain rfl := Option.some.inj h
    simp only [play, finishClient]
    repeat' split
    all_goals exact ⟨rfl, fun j hj => by simp [Config.put, hj]⟩
  | crash i' =>
    obtain rfl := Option.some.inj h
    exact ⟨rfl, fun j hj => by simp [play, Config.put, hj]⟩

theorem play_prompt (D : Driver) (c : Clock) (t : Int) (n : Nat) (acts : List Act')
    (hb : acts.all (fun a => a.client.all fun i => decide (i < n)) = true) :
    Prompt D c t (acts.foldl (playPrompt D c t n) Config.init) := by
  have hn : ∀ a ∈ acts, ∀ i, a.client = some i → i < n := fun a ha i hi => by
    have := List.all_eq_true.1 hb a ha
    rw [hi] at this
    simpa using this
  clear hb
  suffices h : ∀ cfg, Prompt D c t cfg → (∀ i, n ≤ i → cfg.clients i = none) →
      Prompt D c t (acts.foldl (playPrompt D c t n) cfg) from h _ .init fun _ _ => rfl
  induction acts with
  | nil => exact fun cfg h _ => h
  | cons a r ih =>
    intro cfg h hidle
    suffices hs : Prompt D c t (playPrompt D c t n cfg a) ∧
        ∀ i, n ≤ i → (playPrompt D c t n cfg a).clients i = none from
      ih (fun a ha => hn a (List.mem_cons_of_mem _ ha)) _ hs.1 hs.2
    have hother : ∀ i, a.client = some i → Prompt D c t (play D c (fun _ _ => true) cfg a) ∧
        ∀ i, n ≤ i → (play D c (fun _ _ => true) cfg a).clients i = none := fun i hi => by
      have hl := play_local D c cfg a i hi
      refine ⟨?_, fun j hj => ?_⟩
      · rcases play_step D c cfg a with he | hs
        · rw [he]; exact h
        · exact .step h hs fun _ _ _ _ _ _ hw => by rw [hl.1]; exact hw
      · have := hn a (List.mem_cons_self ..) i hi
        rw [hl.2 j (by omega)]
        exact hidle j hj
    cases a with
    | tick now =>
      simp only [playPrompt]
      split
      · next hall =>
        refine ⟨?_, fun j hj => ?_⟩
        · rcases play_step D c cfg (.tick now) with he | hs
          · rw [he]; exact h
          · refine .step h hs fun i cl url salt hi hop hw => ?_
            have hin : i < n := Nat.lt_of_not_le fun hle => by rw [hidle i hle] at hi; cases hi
            have := List.all_eq_true.1 hall i (List.mem_range.2 hin)
            obtain ⟨op, s, todo⟩ := cl
            simp only at hop
            subst hop
            rw [hi] at this
            simp only [hw, decide_true, Bool.not_true, Bool.false_or, decide_eq_true_eq] at this
            simp only [play]
            split
            · exact this
            · exact hw
        · simp only [play]
          split <;> exact hidle j hj
      · exact ⟨h, hidle⟩
    | start i op => exact hother i rfl
    | run i => exact hother i rfl
    | fail i e => exact hother i rfl
    | unheard i e => exact hother i rfl
    | finish i => exact hother i rfl
    | crash i => exact hother i rfl

end SqlConc
