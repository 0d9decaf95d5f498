import Verif.Lemmas.MemConc
/-! # What is stored for a known server stays: the memory store with several threads -/

namespace MemConc
open Py Association Store MemStore

section
variable (url : Str) (X : Nat) (a : Assoc)

/-- what threads may ask while the association stays where it is -/
def KeepAsk : Call → Prop
  | .newServer u => u ≠ url
  | .delServer _ => False
  | .setAssoc x b => x = X → b.handle = a.handle → b = a
  | .delAssoc x h => x = X → h ≠ a.handle
  | _ => True

/-- what is replied; `w` says that the association is stored -/
def KeepReply (w : Prop) : (q : Call) → Reply q → Prop
  | .getServer u, r => (u = url → r = some X) ∧ (u ≠ url → r ≠ some X)
  | .newServer _, r => r ≠ X
  | .setAssoc x b, _ => x = X → b = a → w
  | .getAssoc x h, r => x = X → h = a.handle → w → r = some a
  | _, _ => True

def keeping : Logic := ⟨Prop, (· → ·), fun _ h => h, fun h h' x => h' (h x), fun _ => KeepAsk url X a, KeepReply url X a⟩

theorem keep_getServerAssocs (u : Str) (w : Prop) :
    Good (keeping url X a) (fun _ r => (∃ x, r = .ok x ∧ (x = X ↔ u = url))) w (getServerAssocs u) := by
  refine ⟨fun _ _ => trivial, fun w' hw r hr => ?_⟩
  cases r with
  | some x =>
    refine fun w'' hw' => ⟨x, rfl, fun hx => ?_, fun hu => Option.some.inj (hr.1 hu)⟩
    exact Classical.not_not.1 fun hu => hr.2 hu (congrArg some hx)
  | none =>
    have hu : u ≠ url := fun hu => nomatch hr.1 hu
    exact ⟨fun _ _ => hu, fun w'' hw' r hr w3 hw3 => ⟨r, rfl, fun hx => absurd hx hr, fun h => absurd h hu⟩⟩

/-- what is used of the end of an operation; `b` says that the association was stored when it began -/
def KeepGives (op : Op) (b w : Prop) (r : Outcome) : Prop :=
  (op = .storeAssociation url a → w) ∧
    (b → op = .getAssociation url (some a.handle) → r = .ok (.assoc (some a)))

theorem keep_free {α : Type} {w : Prop} {p : Prog α} (hp : Good (keeping url X a) (fun _ _ => True) w p) {op : Op} {b : Prop}
    {f : α → Answer} (h1 : op ≠ .storeAssociation url a) (h2 : op ≠ .getAssociation url (some a.handle)) :
    Good (keeping url X a) (KeepGives url a op b) w (p >>= fun x => .done (.ok (f x))) :=
  Good.bind' hp (fun _ _ _ _ _ _ => ⟨fun h => absurd h h1, fun _ h => absurd h h2⟩)
    fun _ _ _ _ => ⟨fun h => absurd h h1, fun _ h => absurd h h2⟩

theorem keep_bestLoop (x n : Nat) (it : Iter) (b : Option Assoc) (w : Prop) :
    Good (keeping url X a) (fun _ _ => True) w (bestLoop x n it b) := by
  induction n generalizing it b w with
  | zero => exact ⟨fun _ _ => trivial, fun _ _ r => nomatch r⟩
  | succ n ih =>
    refine ⟨fun _ _ => trivial, fun w' hw r hr => ?_⟩
    cases r with
    | error e => exact fun _ _ => trivial
    | ok r =>
      cases r with
      | none => exact fun _ _ => trivial
      | some p => exact ih _ _ _

theorem keep_staleLoop (c : Clock) (now n : Nat) (it : Iter) (w : Prop) :
    Good (keeping url X a) (fun _ _ => True) w (staleLoop c now n it) := by
  induction n generalizing it w with
  | zero => exact ⟨fun _ _ => trivial, fun _ _ r => nomatch r⟩
  | succ n ih =>
    refine ⟨fun _ _ => trivial, fun w' hw r hr => ?_⟩
    cases r with
    | error e => exact fun _ _ => trivial
    | ok r =>
      cases r with
      | none => exact fun _ _ => trivial
      | some p => exact Good.bind' (ih _ _) (fun _ _ _ _ _ _ => trivial) fun _ _ _ _ => trivial

theorem keep_delNonces (l : List NonceKey) (w : Prop) :
    Good (keeping url X a) (fun _ _ => True) w (delNonces l) := by
  induction l generalizing w with
  | nil => exact fun _ _ => trivial
  | cons k r ih =>
    refine ⟨fun _ _ => trivial, fun w' hw b _ => ?_⟩
    cases b with
    | true => exact ih w'
    | false => exact fun _ _ => trivial

theorem keep_program (c : Clock) (op : Op) (b w : Prop) (hb : b → w) (hc : op ≠ .cleanupAssociations)
    (ho : Touches url a.handle op → op = .storeAssociation url a) :
    Good (keeping url X a) (KeepGives url a op b) w (program c op) := by
  cases op with
  | storeAssociation u v =>
    refine Good.bind' (L := keeping url X a) (G := fun (w : Prop) r => (Op.storeAssociation u v = .storeAssociation url a → w) ∧ ∃ x, r = .ok x) ?_
      (fun w1 h1 _ hg w2 h2 => ⟨fun h => h2 (hg.1 h), nofun⟩) fun _ _ e he => nomatch he.2
    refine Good.bind' (keep_getServerAssocs url X a u w) (fun w1 h1 x hx => ?_) fun _ _ e he => nomatch he
    obtain ⟨x', hx', hx⟩ := hx
    obtain rfl := Except.ok.inj hx'
    refine ⟨fun w2 h2 hX hh => ?_, fun w2 h2 r hr w3 h3 => ⟨fun h => ?_, r, rfl⟩⟩
    · have := ho ⟨hx.1 hX, hh⟩
      simp only [Op.storeAssociation.injEq] at this
      exact this.2
    · simp only [Op.storeAssociation.injEq] at h
      exact h3 (hr (hx.2 h.1) h.2)
  | getAssociation u h =>
    cases h with
    | none =>
      refine keep_free url X a ?_ nofun (by simp)
      refine Good.bind' (keep_getServerAssocs url X a u w) (fun w1 h1 x hx => ?_) fun _ _ e he => trivial
      exact ⟨fun _ _ => trivial, fun w2 h2 i _ => keep_bestLoop url X a x _ _ none w2⟩
    | some h =>
      refine Good.bind' (L := keeping url X a) (G := fun _ r => ∃ x, r = .ok x ∧ (b → u = url → h = a.handle → x = some a)) ?_
        (fun w1 h1 r hr w2 h2 => ⟨nofun, fun hb' ho' => ?_⟩) fun _ _ e he => nomatch he
      · refine Good.bind' (keep_getServerAssocs url X a u w) (fun w1 h1 x hx => ?_) fun _ _ e he => nomatch he
        obtain ⟨x', hx', hx⟩ := hx
        obtain rfl := Except.ok.inj hx'
        exact ⟨fun _ _ => trivial, fun w2 h2 r hr w3 h3 => ⟨r, rfl, fun hb' hu hh =>
          hr (hx.2 hu) hh (h2 (h1 (hb hb')))⟩⟩
      · obtain ⟨x, hx, hr⟩ := hr
        obtain rfl := Except.ok.inj hx
        simp only [Op.getAssociation.injEq, Option.some.injEq] at ho'
        simp [hr hb' ho'.1 ho'.2]
  | removeAssociation u h =>
    refine keep_free url X a ?_ nofun nofun
    refine Good.bind' (keep_getServerAssocs url X a u w) (fun w1 h1 x hx => ?_) fun _ _ e he => trivial
    obtain ⟨x', hx', hx⟩ := hx
    obtain rfl := Except.ok.inj hx'
    refine ⟨fun _ _ hX hh => ?_, fun _ _ _ _ _ _ => trivial⟩
    exact nomatch ho ⟨hx.1 hX, hh⟩
  | useNonce u t salt =>
    refine keep_free url X a ?_ nofun nofun
    refine ⟨fun _ _ => trivial, fun w1 _ now _ => ?_⟩
    simp only
    split
    · exact fun _ _ => trivial
    · refine ⟨fun _ _ => trivial, fun w2 _ b _ => ?_⟩
      cases b with
      | true => exact fun _ _ => trivial
      | false => exact ⟨fun _ _ => trivial, fun _ _ _ _ _ _ => trivial⟩
  | cleanupNonces =>
    refine keep_free url X a ?_ nofun nofun
    refine ⟨fun _ _ => trivial, fun w1 _ now _ => ⟨fun _ _ => trivial, fun w2 _ i _ => ?_⟩⟩
    refine Good.bind' (keep_staleLoop url X a c now _ _ w2) (fun w3 _ l _ => ?_) fun _ _ e he => trivial
    exact Good.bind' (keep_delNonces url X a l w3) (fun _ _ _ _ _ _ => trivial) fun _ _ e he => trivial
  | cleanupAssociations => exact absurd rfl hc

/-- the association is where it belongs -/
def State.Holds (s : State) : Prop := Dict.get? (s.heap X).items a.handle = some a

/-- the server has its object, and it is its alone -/
structure Known (s : State) : Prop where
  here : Dict.get? s.servers.items url = some X
  alone : ∀ u, u ≠ url → Dict.get? s.servers.items u ≠ some X
  made : X < s.next

theorem perform_keep {clock : Nat} {q : Call} {s s' : State} {r : Reply q} (ht : Tidy s) (h : Known url X s)
    (ha : KeepAsk url X a q) (hp : Perform clock q s r s') :
    Known url X s' ∧ (s.Holds X a → s'.Holds X a) ∧ KeepReply url X a (s'.Holds X a) q r := by
  cases q with
  | never => exact hp.elim
  | setNonce k => rw [hp]; exact ⟨⟨h.here, h.alone, h.made⟩, id, trivial⟩
  | delNonce k => rw [hp.2]; exact ⟨⟨h.here, h.alone, h.made⟩, id, trivial⟩
  | newServer u =>
    obtain ⟨hr, rfl⟩ := hp
    have hne : X ≠ s.next := Nat.ne_of_lt h.made
    refine ⟨⟨?_, fun u' hu' => ?_, Nat.lt_succ_of_lt h.made⟩, fun hh => ?_, ?_⟩
    · show Dict.get? (Dict.set s.servers.items u s.next) url = _
      rw [Dict.get?_set, if_neg ha]; exact h.here
    · show Dict.get? (Dict.set s.servers.items u s.next) u' ≠ _
      rw [Dict.get?_set]
      split
      · exact fun h' => hne (Option.some.inj h').symm
      · exact h.alone u' hu'
    · show Dict.get? (if X = s.next then Table.empty else s.heap X).items a.handle = some a
      rw [if_neg hne]; exact hh
    · exact fun hX => hne (hX.symm.trans hr)
  | delServer u => exact ha.elim
  | setAssoc x b =>
    rw [hp]
    have hX : ∀ hx : x = X, Dict.get? ((s.putAssocs x ((s.heap x).set b.handle b)).heap X).items a.handle =
        if b.handle = a.handle then some b else Dict.get? (s.heap X).items a.handle := by
      rintro rfl
      simp only [State.putAssocs, if_true]
      exact Dict.get?_set _ _ _ _
    refine ⟨⟨h.here, h.alone, h.made⟩, fun hh => ?_, fun hx hb => ?_⟩
    · by_cases hx : x = X
      · simp only [State.Holds]
        rw [hX hx]
        split
        · next hbh => rw [ha hx hbh]
        · exact hh
      · show Dict.get? (if X = x then _ else s.heap X).items a.handle = some a
        rw [if_neg (Ne.symm hx)]; exact hh
    · simp only [State.Holds]
      rw [hX hx, hb, if_pos rfl]
  | delAssoc x hd =>
    rw [hp.2]
    refine ⟨⟨h.here, h.alone, h.made⟩, fun hh => ?_, trivial⟩
    by_cases hx : x = X
    · subst hx
      show Dict.get? (if x = x then (s.heap x).del hd else s.heap x).items a.handle = some a
      rw [if_pos rfl]
      unfold Table.del
      split
      · show Dict.get? (Dict.del (s.heap x).items hd) a.handle = some a
        rw [Dict.get?_del _ (ht.heap x), if_neg (ha rfl)]; exact hh
      · exact hh
    · show Dict.get? (if X = x then _ else s.heap X).items a.handle = some a
      rw [if_neg (Ne.symm hx)]; exact hh
  | getServer u =>
    obtain ⟨hr, rfl⟩ := hp
    exact ⟨h, id, fun hu => by rw [hr, hu]; exact h.here, fun hu => by rw [hr]; exact h.alone u hu⟩
  | getAssoc x hd =>
    obtain ⟨hr, rfl⟩ := hp
    exact ⟨h, id, fun hx hh hw => by rw [hr, hx, hh]; exact hw⟩
  | _ => rw [hp.2]; exact ⟨h, id, trivial⟩

/-- some call since `n` stored the association and returned before number `m` -/
def StoredBefore (cfg : Config) (n m : Nat) : Prop :=
  ∃ x ∈ cfg.returned, x.op = .storeAssociation url a ∧ n ≤ x.began ∧ x.ended < m

structure Kept (n : Nat) (cfg : Config) : Prop where
  later : n ≤ cfg.seq
  begins : ∀ i cl, cfg.clients i = some cl → cl.began < cfg.seq
  known : Known url X cfg.state
  clients : ∀ i cl, cfg.clients i = some cl →
    Good (keeping url X a) (KeepGives url a cl.op (StoredBefore url a cfg n cl.began)) (cfg.state.Holds X a) cl.todo
  told : ∀ x ∈ cfg.returned, n ≤ x.began → x.op = .storeAssociation url a → cfg.state.Holds X a
  outs : ∀ y ∈ cfg.returned, StoredBefore url a cfg n y.began → y.op = .getAssociation url (some a.handle) →
    n ≤ y.began → y.outcome = .ok (.assoc (some a))
  ends : ∀ y ∈ cfg.returned, y.began < cfg.seq

theorem kept_step {c : Clock} {allowed : Config → Client → Prop} {n : Nat} {cfg cfg' : Config} (ht : Tidy cfg.state)
    (h : Kept url X a n cfg) (hs : Step c allowed cfg cfg')
    (hops : ∀ op, cfg'.started = op :: cfg.started →
      op ≠ .cleanupAssociations ∧ (Touches url a.handle op → op = .storeAssociation url a)) :
    Kept url X a n cfg' := by
  cases hs with
  | tick t hl => exact ⟨h.later, h.begins, h.known, h.clients, h.told, h.outs, h.ends⟩
  | start i op hi =>
    refine ⟨Nat.le_succ_of_le h.later, fun j cl hj => ?_, h.known, fun j cl hj => ?_, h.told, h.outs,
      fun y hy => Nat.lt_succ_of_lt (h.ends y hy)⟩
    · rcases put_some hj with ⟨-, hj⟩ | ⟨-, hj⟩
      · obtain rfl := Option.some.inj hj; exact Nat.lt_succ_self _
      · exact Nat.lt_succ_of_lt (h.begins j cl hj)
    · rcases put_some hj with ⟨-, hj⟩ | ⟨-, hj⟩
      · obtain rfl := Option.some.inj hj
        obtain ⟨h1, h2⟩ := hops op rfl
        refine keep_program url X a c op _ _ ?_ h1 h2
        rintro ⟨x, hx, hxo, hxn, -⟩
        exact h.told x hx hxn hxo
      · exact h.clients j cl hj
  | call i op b q k r s hi ha hp =>
    have hg := h.clients i _ hi
    obtain ⟨h1, h2, h3⟩ := perform_keep url X a ht h.known (hg.1 _ id) hp
    refine ⟨h.later, fun j cl hj => ?_, h1, fun j cl hj => ?_, fun x hx hn ho => h2 (h.told x hx hn ho), h.outs, h.ends⟩
    · rcases put_some hj with ⟨-, hj⟩ | ⟨-, hj⟩
      · obtain rfl := Option.some.inj hj; exact h.begins i ⟨op, b, .call q k⟩ hi
      · exact h.begins j cl hj
    · rcases put_some hj with ⟨-, hj⟩ | ⟨-, hj⟩
      · obtain rfl := Option.some.inj hj
        exact hg.2 _ h2 r h3
      · exact (h.clients j cl hj).mono (L := keeping url X a) h2
  | finish i op b r hi =>
    have hb : ∀ m, m < cfg.seq → StoredBefore url a
        { cfg.put i none with seq := cfg.seq + 1, returned := ⟨op, b, cfg.seq, r⟩ :: cfg.returned } n m →
        StoredBefore url a cfg n m := by
      rintro m hm ⟨x, hx, h1, h2, h3⟩
      rcases List.mem_cons.1 hx with rfl | hx
      · exact absurd (Nat.lt_trans h3 hm) (Nat.lt_irrefl _)
      · exact ⟨x, hx, h1, h2, h3⟩
    have hg := h.clients i _ hi (cfg.state.Holds X a) id
    refine ⟨Nat.le_succ_of_le h.later, fun j cl hj => ?_, h.known, fun j cl hj => ?_, fun x hx hn ho => ?_,
      fun y hy hs ho hn => ?_, fun y hy => ?_⟩
    · rcases put_some hj with ⟨-, hj⟩ | ⟨-, hj⟩
      · cases hj
      · exact Nat.lt_succ_of_lt (h.begins j cl hj)
    · rcases put_some hj with ⟨-, hj⟩ | ⟨-, hj⟩
      · cases hj
      · refine (h.clients j cl hj).weaken (L := keeping url X a) fun w' r' _ hg' => ⟨hg'.1, fun hs => hg'.2 (hb _ (h.begins j cl hj) hs)⟩
    · rcases List.mem_cons.1 hx with rfl | hx
      · exact hg.1 ho
      · exact h.told x hx hn ho
    · rcases List.mem_cons.1 hy with rfl | hy
      · exact hg.2 (hb _ (h.begins i _ hi) hs) ho
      · exact h.outs y hy (hb _ (h.ends y hy) hs) ho hn
    · rcases List.mem_cons.1 hy with rfl | hy
      · exact Nat.lt_succ_of_lt (h.begins i _ hi)
      · exact Nat.lt_succ_of_lt (h.ends y hy)

end

end MemConc

namespace MemConc
open Py Association Store MemStore

/-! ## Servers become known -/

section
variable (url : Str)

def KnowAsk : Call → Prop
  | .delServer _ => False
  | _ => True

def KnowReply (w : Prop) : (q : Call) → Reply q → Prop
  | .getServer u, r => u = url → r ≠ none → w
  | .newServer u, _ => u = url → w
  | _, _ => True

def knowing : Logic := ⟨Prop, (· → ·), fun _ h => h, fun h h' x => h' (h x), fun _ => KnowAsk, KnowReply url⟩

/-- the operation is about the server -/
def About : Op → Prop
  | .storeAssociation u _ => u = url
  | .getAssociation u _ => u = url
  | .removeAssociation u _ => u = url
  | _ => False

theorem know_getServerAssocs (w : Prop) (u : Str) :
    Good (knowing url) (fun (w : Prop) _ => u = url → w) w (getServerAssocs u) := by
  refine ⟨fun _ _ => trivial, fun w' hw r hr => ?_⟩
  cases r with
  | some x => exact fun w'' hw' hu => hw' (hr hu nofun)
  | none => exact ⟨fun _ _ => trivial, fun w'' hw' r hr w3 hw3 hu => hw3 (hr hu)⟩

theorem know_after {α : Type} {w : Prop} {u : Str} {f : Nat → Prog α}
    (hf : ∀ (w' : Prop) x, (u = url → w') → Good (knowing url) (fun (w : Prop) _ => u = url → w) w' (f x)) :
    Good (knowing url) (fun (w : Prop) _ => u = url → w) w (getServerAssocs u >>= f) :=
  Good.bind' (know_getServerAssocs url w u) (fun w' _ x hx => hf w' x hx) fun _ _ _ he => he

theorem know_free {α : Type} {w : Prop} {p : Prog α} (hp : Good (knowing url) (fun _ _ => True) w p) {op : Op}
    {f : α → Answer} (h : ¬ About url op) :
    Good (knowing url) (fun (w : Prop) _ => About url op → w) w (p >>= fun x => .done (.ok (f x))) :=
  Good.bind' hp (fun _ _ _ _ _ _ h' => absurd h' h) fun _ _ _ _ h' => absurd h' h

theorem know_wrap {α : Type} {w : Prop} {P : Prop} {p : Prog α} (hp : Good (knowing url) (fun (w : Prop) _ => P → w) w p)
    {f : α → Answer} :
    Good (knowing url) (fun (w : Prop) _ => P → w) w (p >>= fun x => .done (.ok (f x))) :=
  Good.bind' hp (fun _ _ _ hg _ hw h' => hw (hg h')) fun _ _ _ hg => hg

theorem know_bestLoop {P : Prop} (x n : Nat) (it : Iter) (b : Option Assoc) (w : Prop) (hP : P → w) :
    Good (knowing url) (fun (w : Prop) _ => P → w) w (bestLoop x n it b) := by
  induction n generalizing it b w with
  | zero => exact ⟨fun _ _ => trivial, fun _ _ r => nomatch r⟩
  | succ n ih =>
    refine ⟨fun _ _ => trivial, fun w' hw r hr => ?_⟩
    cases r with
    | error e => exact fun _ hw' h => hw' (hw (hP h))
    | ok r =>
      cases r with
      | none => exact fun _ hw' h => hw' (hw (hP h))
      | some p => exact ih _ _ _ fun h => hw (hP h)

theorem know_staleLoop (c : Clock) (now n : Nat) (it : Iter) (w : Prop) :
    Good (knowing url) (fun _ _ => True) w (staleLoop c now n it) := by
  induction n generalizing it w with
  | zero => exact ⟨fun _ _ => trivial, fun _ _ r => nomatch r⟩
  | succ n ih =>
    refine ⟨fun _ _ => trivial, fun w' hw r hr => ?_⟩
    cases r with
    | error e => exact fun _ _ => trivial
    | ok r =>
      cases r with
      | none => exact fun _ _ => trivial
      | some p => exact Good.bind' (ih _ _) (fun _ _ _ _ _ _ => trivial) fun _ _ _ _ => trivial

theorem know_delNonces (l : List NonceKey) (w : Prop) :
    Good (knowing url) (fun _ _ => True) w (delNonces l) := by
  induction l generalizing w with
  | nil => exact fun _ _ => trivial
  | cons k r ih =>
    refine ⟨fun _ _ => trivial, fun w' hw b _ => ?_⟩
    cases b with
    | true => exact ih w'
    | false => exact fun _ _ => trivial

theorem know_program (c : Clock) (op : Op) (w : Prop) (hc : op ≠ .cleanupAssociations) :
    Good (knowing url) (fun (w : Prop) _ => About url op → w) w (program c op) := by
  cases op with
  | storeAssociation u v =>
    refine know_wrap url (P := u = url) (know_after url fun w' x hx => ?_)
    exact ⟨fun _ _ => trivial, fun w2 h2 r _ w3 h3 h => h3 (h2 (hx h))⟩
  | getAssociation u h =>
    cases h with
    | none =>
      refine know_wrap url (P := u = url) (know_after url fun w' x hx => ?_)
      exact ⟨fun _ _ => trivial, fun w2 h2 i _ => know_bestLoop url x _ _ none w2 fun h => h2 (hx h)⟩
    | some h =>
      refine know_wrap url (P := u = url) (know_after url fun w' x hx => ?_)
      exact ⟨fun _ _ => trivial, fun w2 h2 r _ w3 h3 h => h3 (h2 (hx h))⟩
  | removeAssociation u h =>
    refine know_wrap url (P := u = url) (know_after url fun w' x hx => ?_)
    exact ⟨fun _ _ => trivial, fun w2 h2 r _ w3 h3 h => h3 (h2 (hx h))⟩
  | useNonce u t salt =>
    refine know_free url ?_ nofun
    refine ⟨fun _ _ => trivial, fun w1 _ now _ => ?_⟩
    simp only
    split
    · exact fun _ _ => trivial
    · refine ⟨fun _ _ => trivial, fun w2 _ b _ => ?_⟩
      cases b with
      | true => exact fun _ _ => trivial
      | false => exact ⟨fun _ _ => trivial, fun _ _ _ _ _ _ => trivial⟩
  | cleanupNonces =>
    refine know_free url ?_ nofun
    refine ⟨fun _ _ => trivial, fun w1 _ now _ => ⟨fun _ _ => trivial, fun w2 _ i _ => ?_⟩⟩
    refine Good.bind' (know_staleLoop url c now _ _ w2) (fun w3 _ l _ => ?_) fun _ _ e he => trivial
    exact Good.bind' (know_delNonces url l w3) (fun _ _ _ _ _ _ => trivial) fun _ _ e he => trivial
  | cleanupAssociations => exact absurd rfl hc

def State.Knows (s : State) : Prop := Dict.has s.servers.items url = true

theorem perform_know {clock : Nat} {q : Call} {s s' : State} {r : Reply q} (ha : KnowAsk q)
    (hp : Perform clock q s r s') : (s.Knows url → s'.Knows url) ∧ KnowReply url (s'.Knows url) q r := by
  cases q with
  | never => exact hp.elim
  | setNonce k => rw [hp]; exact ⟨id, trivial⟩
  | delNonce k => rw [hp.2]; exact ⟨id, trivial⟩
  | newServer u =>
    obtain ⟨hr, rfl⟩ := hp
    exact ⟨fun h => (has_set _ _ _ _).2 (.inr h), fun hu => (has_set _ _ _ _).2 (.inl hu.symm)⟩
  | delServer u => exact ha.elim
  | setAssoc x b => rw [hp]; exact ⟨id, trivial⟩
  | delAssoc x hd => rw [hp.2]; exact ⟨id, trivial⟩
  | getServer u =>
    obtain ⟨hr, rfl⟩ := hp
    refine ⟨id, fun hu hn => ?_⟩
    subst hu hr
    exact Option.isSome_iff_ne_none.2 hn
  | _ => rw [hp.2]; exact ⟨id, trivial⟩

structure Learnt (cfg : Config) : Prop where
  clients : ∀ i cl, cfg.clients i = some cl →
    Good (knowing url) (fun (w : Prop) _ => About url cl.op → w) (cfg.state.Knows url) cl.todo
  outs : ∀ x ∈ cfg.returned, About url x.op → cfg.state.Knows url

theorem learnt {c : Clock} {allowed : Config → Client → Prop} {cfg : Config} (h : Reachable c allowed cfg)
    (hc : Op.cleanupAssociations ∉ cfg.started) : Learnt url cfg := by
  induction h with
  | refl => exact ⟨nofun, nofun⟩
  | @step b b' _ h2 ih =>
    cases h2 with
    | tick t hl => exact ⟨(ih hc).clients, (ih hc).outs⟩
    | start i op hi =>
      have hc' : ¬ Op.cleanupAssociations = op ∧ Op.cleanupAssociations ∉ b.started := by
        simpa only [List.mem_cons, not_or] using hc
      have ih := ih hc'.2
      refine ⟨fun j cl hj => ?_, ih.outs⟩
      rcases put_some hj with ⟨-, hj⟩ | ⟨-, hj⟩
      · obtain rfl := Option.some.inj hj
        exact know_program url c op _ fun h => hc'.1 h.symm
      · exact ih.clients j cl hj
    | call i op b q k r s hi ha hp =>
      have ih := ih hc
      have hg := ih.clients i _ hi
      obtain ⟨h1, h2⟩ := perform_know url (hg.1 _ id) hp
      refine ⟨fun j cl hj => ?_, fun x hx ho => h1 (ih.outs x hx ho)⟩
      rcases put_some hj with ⟨-, hj⟩ | ⟨-, hj⟩
      · obtain rfl := Option.some.inj hj
        exact hg.2 _ h1 r h2
      · exact (ih.clients j cl hj).mono (L := knowing url) h1
    | finish i op b r hi =>
      have ih := ih hc
      refine ⟨fun j cl hj => ?_, fun x hx ho => ?_⟩
      · rcases put_some hj with ⟨-, hj⟩ | ⟨-, hj⟩
        · cases hj
        · exact ih.clients j cl hj
      · rcases List.mem_cons.1 hx with rfl | hx
        · exact ih.clients i _ hi _ id ho
        · exact ih.outs x hx ho

end

theorem steps_started {c : Clock} {allowed : Config → Client → Prop} {a b : Config} (h : Steps c allowed a b) :
    ∃ l, b.started = l ++ a.started := by
  induction h with
  | refl => exact ⟨[], rfl⟩
  | step _ h2 ih =>
    obtain ⟨l, hl⟩ := ih
    cases h2 with
    | start i op hi => exact ⟨op :: l, by show op :: _ = _; rw [hl]; rfl⟩
    | _ => exact ⟨l, hl⟩

theorem steps_trans {c : Clock} {allowed : Config → Client → Prop} {a b d : Config} (h : Steps c allowed a b)
    (h' : Steps c allowed b d) : Steps c allowed a d := by
  induction h' with
  | refl => exact h
  | step _ h2 ih => exact ih.step h2

theorem steps_kept {c : Clock} {allowed : Config → Client → Prop} {cfg0 cfg : Config} (h0 : Reachable c allowed cfg0)
    {url : Str} {X : Nat} {a : Assoc} {n : Nat} (hk : Kept url X a n cfg0) (h : Steps c allowed cfg0 cfg)
    {new : List Op} (hnew : cfg.started = new ++ cfg0.started)
    (hops : ∀ op ∈ new, op ≠ .cleanupAssociations ∧ (Touches url a.handle op → op = .storeAssociation url a)) :
    Kept url X a n cfg := by
  induction h generalizing new with
  | refl => exact hk
  | @step b b' h1 h2 ih =>
    have ht := tidy (steps_trans h0 h1)
    obtain ⟨l, hl⟩ := steps_started h1
    cases h2 with
    | start i op hi =>
      have he : op :: l = new := by
        refine List.append_cancel_right (bs := cfg0.started) ?_
        rw [← hnew]
        show op :: (l ++ cfg0.started) = op :: b.started
        rw [hl]
      subst he
      refine kept_step (allowed := allowed) url X a ht (ih hl fun o ho => hops o (List.mem_cons_of_mem _ ho)) (.start b i op hi) ?_
      intro o ho
      obtain rfl := (List.cons.inj ho).1
      exact hops _ (List.mem_cons_self ..)
    | tick t hl' =>
      exact kept_step (c := c) (allowed := allowed) url X a ht (ih hnew hops) (.tick b t hl') fun op ho =>
        absurd (congrArg List.length ho) (by simp)
    | call i op bb q k r s hi ha hp =>
      exact kept_step (c := c) (allowed := allowed) url X a ht (ih hnew hops) (.call b i op bb q k r s hi ha hp) fun op ho =>
        absurd (congrArg List.length ho) (by simp [Config.put])
    | finish i op bb r hi =>
      exact kept_step (c := c) (allowed := allowed) url X a ht (ih hnew hops) (.finish b i op bb r hi) fun op ho =>
        absurd (congrArg List.length ho) (by simp [Config.put])

end MemConc
