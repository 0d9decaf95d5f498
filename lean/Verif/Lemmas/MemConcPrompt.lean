import Verif.Lemmas.MemConcNonce
/-! # The programs of the memory store mind the time of a nonce -/

namespace MemConc
open Py Association Store MemStore

/-- A program that asks only what it may (`Ok`) as long as the answers are as they should be (`Good`), and then
    returns what it should. -/
def Holds (Ok : Call → Prop) (Good : (q : Call) → Reply q → Prop) : Prog α → (α → Prop) → Prop
  | .done (.ok a), P => P a
  | .done (.error _), _ => True
  | .call q k, P => Ok q ∧ ∀ r, Good q r → Holds Ok Good (k r) P

theorem Holds.bind {Ok : Call → Prop} {Good : (q : Call) → Reply q → Prop} {p : Prog α} {f : α → Prog β}
    {P : α → Prop} {Q : β → Prop} (h : Holds Ok Good p P) (hf : ∀ a, P a → Holds Ok Good (f a) Q) :
    Holds Ok Good (p.bind f) Q := by
  induction p with
  | done r => cases r with
    | ok a => exact hf a h
    | error e => trivial
  | call q k ih => exact ⟨h.1, fun r hr => ih r (h.2 r hr)⟩

/-- nonces of the time `t` are not asked for -/
def NotOf (t : Int) : Call → Prop
  | .hasNonce k => k.2.1 ≠ t
  | .delNonce k => k.2.1 ≠ t
  | _ => True

abbrev Free (t : Int) (p : Prog α) : Prop := Holds (NotOf t) (fun _ _ => True) p fun _ => True

/-- nonces of the time `t` are looked for only if that is within five hours (`w`), and deleted only if not -/
def Fits (t : Int) (w : Prop) : Call → Prop
  | .hasNonce k => k.2.1 = t → w
  | .delNonce k => k.2.1 = t → ¬ w
  | _ => True

/-- the clock says whether `t` is within five hours -/
def Truly (c : Clock) (t : Int) (w : Prop) : (q : Call) → Reply q → Prop
  | .time, now => c.within 18000 now t ↔ w
  | _, _ => True

abbrev Safe (c : Clock) (t : Int) (w : Prop) (p : Prog α) : Prop := Holds (Fits t w) (Truly c t w) p fun _ => True

theorem free_getServerAssocs (t : Int) (url : Str) : Free t (getServerAssocs url) := by
  refine ⟨trivial, fun r _ => ?_⟩
  cases r with
  | some x => trivial
  | none => exact ⟨trivial, fun _ _ => trivial⟩

theorem free_bestLoop (t : Int) (x : Nat) (n : Nat) : ∀ it b, Free t (bestLoop x n it b) := by
  induction n with
  | zero => exact fun it b => ⟨trivial, nofun⟩
  | succ n ih =>
    refine fun it b => ⟨trivial, fun r _ => ?_⟩
    match r with
    | .error e => trivial
    | .ok none => trivial
    | .ok (some p) => exact ih _ _

theorem free_expiredLoop (c : Clock) (t : Int) (x : Nat) (n : Nat) : ∀ it, Free t (expiredLoop c x n it) := by
  induction n with
  | zero => exact fun it => ⟨trivial, nofun⟩
  | succ n ih =>
    refine fun it => ⟨trivial, fun r _ => ?_⟩
    match r with
    | .error e => trivial
    | .ok none => trivial
    | .ok (some p) => exact ⟨trivial, fun now _ => (ih _).bind fun a _ => trivial⟩

theorem free_delAssocs (t : Int) (x : Nat) (l : List Str) : Free t (delAssocs x l) := by
  induction l with
  | nil => trivial
  | cons h r ih =>
    refine ⟨trivial, fun b _ => ?_⟩
    cases b with
    | true => exact ih
    | false => trivial

theorem free_cleanup (c : Clock) (t : Int) (x : Nat) : Free t (cleanup c x) :=
  ⟨trivial, fun _ _ => (free_expiredLoop ..).bind fun _ _ => (free_delAssocs ..).bind fun _ _ =>
    ⟨trivial, fun _ _ => trivial⟩⟩

theorem free_serverLoop (c : Clock) (t : Int) (n : Nat) : ∀ it, Free t (serverLoop c n it) := by
  induction n with
  | zero => exact fun it => ⟨trivial, nofun⟩
  | succ n ih =>
    refine fun it => ⟨trivial, fun r _ => ?_⟩
    match r with
    | .error e => trivial
    | .ok none => trivial
    | .ok (some p) => exact (free_cleanup ..).bind fun _ _ => (ih _).bind fun _ _ => trivial

theorem free_delServers (t : Int) (l : List Str) : Free t (delServers l) := by
  induction l with
  | nil => trivial
  | cons h r ih =>
    refine ⟨trivial, fun b _ => ?_⟩
    cases b with
    | true => exact ih
    | false => trivial

theorem free_checkNonce {t : Int} {k : NonceKey} (h : k.2.1 ≠ t) : Free t (checkNonce k) := by
  refine ⟨h, fun b _ => ?_⟩
  cases b with
  | true => trivial
  | false => exact ⟨trivial, fun _ _ => trivial⟩

/-- operations that do not mind the time do not ask -/
theorem free_program (c : Clock) (t : Int) (op : Op) (h : ¬ Minds t op) : Free t (program c op) := by
  cases op with
  | storeAssociation url a =>
    exact Holds.bind (P := fun _ => True) ((free_getServerAssocs ..).bind fun _ _ =>
      ⟨trivial, fun _ _ => trivial⟩) fun _ _ => trivial
  | getAssociation url hd =>
    refine Holds.bind (P := fun _ => True) ((free_getServerAssocs ..).bind fun x _ => ?_) fun _ _ => trivial
    cases hd with
    | none => exact ⟨trivial, fun _ _ => free_bestLoop ..⟩
    | some hd => exact ⟨trivial, fun _ _ => trivial⟩
  | removeAssociation url hd =>
    exact Holds.bind (P := fun _ => True) ((free_getServerAssocs ..).bind fun _ _ =>
      ⟨trivial, fun _ _ => trivial⟩) fun _ _ => trivial
  | useNonce url t' salt =>
    refine Holds.bind (P := fun _ => True) ⟨trivial, fun now _ => ?_⟩ fun _ _ => trivial
    simp only
    split
    · trivial
    · exact free_checkNonce h
  | cleanupNonces => exact absurd trivial h
  | cleanupAssociations =>
    exact Holds.bind (P := fun _ => True) ⟨trivial, fun _ _ => (free_serverLoop ..).bind fun _ _ =>
      (free_delServers ..).bind fun _ _ => trivial⟩ fun _ _ => trivial

theorem safe_staleLoop (c : Clock) (t : Int) (w : Prop) (now : Nat) (hw : c.within 18000 now t ↔ w) (n : Nat) :
    ∀ it, Holds (Fits t w) (Truly c t w) (staleLoop c now n it) fun l => ∀ k ∈ l, k.2.1 = t → ¬ w := by
  induction n with
  | zero => exact fun it => ⟨trivial, nofun⟩
  | succ n ih =>
    refine fun it => ⟨trivial, fun r _ => ?_⟩
    match r with
    | .error e => trivial
    | .ok none => exact fun k hk => nomatch hk
    | .ok (some p) =>
      refine (ih _).bind fun l hl => ?_
      show ∀ k ∈ (if outside c now p.1.2.1 then p.1 :: l else l), k.2.1 = t → ¬ w
      split
      · next ho =>
        intro k hk
        rcases List.mem_cons.1 hk with rfl | hk
        · rintro rfl
          rw [← hw]
          exact (outside_iff ..).1 ho
        · exact hl k hk
      · exact hl

theorem safe_delNonces (c : Clock) (t : Int) (w : Prop) (l : List NonceKey) (h : ∀ k ∈ l, k.2.1 = t → ¬ w) :
    Safe c t w (delNonces l) := by
  induction l with
  | nil => trivial
  | cons k r ih =>
    refine ⟨h k (List.mem_cons_self ..), fun b _ => ?_⟩
    cases b with
    | true => exact ih fun k hk => h k (List.mem_cons_of_mem _ hk)
    | false => trivial

/-- the others ask only after they have read the clock -/
theorem safe_program (c : Clock) (t : Int) (op : Op) (h : Minds t op) (w : Prop) : Safe c t w (program c op) := by
  cases op with
  | useNonce url t' salt =>
    obtain rfl : t' = t := h
    refine Holds.bind (P := fun _ => True) ⟨trivial, fun now hn => ?_⟩ fun _ _ => trivial
    simp only
    split
    · trivial
    · next ho =>
      have hw : w := hn.1 (Classical.not_not.1 fun h => ho ((outside_iff ..).2 h))
      refine ⟨fun _ => hw, fun b _ => ?_⟩
      cases b with
      | true => trivial
      | false => exact ⟨trivial, fun _ _ => trivial⟩
  | cleanupNonces =>
    refine Holds.bind (P := fun _ => True) ⟨trivial, fun now hn => ⟨trivial, fun i _ => ?_⟩⟩ fun _ _ => trivial
    exact (safe_staleLoop c t w now hn _ _).bind fun l hl => (safe_delNonces c t w l hl).bind fun _ _ => trivial
  | _ => exact h.elim

/-- where threads may be -/
def Careful (c : Clock) (t : Int) (cfg : Config) : Prop := ∀ i cl, cfg.clients i = some cl →
  (Minds t cl.op → Safe c t (c.within 18000 cfg.clock t) cl.todo) ∧ (¬ Minds t cl.op → Free t cl.todo)

theorem careful_step {c : Clock} {t : Int} {cfg cfg' : Config} (h : Careful c t cfg)
    (h' : Step c (fun _ _ => True) cfg cfg')
    (hw : ∀ i cl, cfg.clients i = some cl → Minds t cl.op →
      (c.within 18000 cfg.clock t ↔ c.within 18000 cfg'.clock t)) :
    Careful c t cfg' ∧ Step c (InTime c t) cfg cfg' := by
  cases h' with
  | tick t' hl =>
    refine ⟨fun i cl hi => ⟨fun hm => ?_, (h i cl hi).2⟩, .tick cfg t' hl⟩
    have := (h i cl hi).1 hm
    rw [hw i cl hi hm] at this
    exact this
  | start i op hi =>
    refine ⟨fun j cl hj => ?_, .start cfg i op hi⟩
    rcases put_some hj with ⟨-, hj⟩ | ⟨-, hj⟩
    · obtain rfl := Option.some.inj hj
      exact ⟨fun hm => safe_program c t op hm _, fun hm => free_program c t op hm⟩
    · exact h j cl hj
  | call i op b q k r s hi ha hp =>
    have hcl := h i _ hi
    refine ⟨fun j cl hj => ?_, .call cfg i op b q k r s hi ?_ hp⟩
    · rcases put_some hj with ⟨-, hj⟩ | ⟨-, hj⟩
      · obtain rfl := Option.some.inj hj
        refine ⟨fun hm => (hcl.1 hm).2 r ?_, fun hm => (hcl.2 hm).2 r trivial⟩
        cases q with
        | time => rw [hp.1]; exact Iff.rfl
        | _ => trivial
      · exact h j cl hj
    · by_cases hm : Minds t op
      · have := (hcl.1 hm).1
        cases q <;> exact this
      · have := (hcl.2 hm).1
        cases q with
        | hasNonce k => exact fun hk => absurd hk this
        | delNonce k => exact fun hk => absurd hk this
        | _ => trivial
  | finish i op b r hi =>
    refine ⟨fun j cl hj => ?_, .finish cfg i op b r hi⟩
    rcases put_some hj with ⟨-, hj⟩ | ⟨-, hj⟩
    · cases hj
    · exact h j cl hj

theorem prompt_inTime {c : Clock} {t : Int} {cfg : Config} (h : Prompt c t cfg) :
    Careful c t cfg ∧ Reachable c (InTime c t) cfg := by
  induction h with
  | init => exact ⟨nofun, .refl⟩
  | step _ h' hw ih =>
    have := careful_step ih.1 h' hw
    exact ⟨this.1, ih.2.step this.2⟩

end MemConc
