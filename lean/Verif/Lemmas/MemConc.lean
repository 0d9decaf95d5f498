import Verif.Lemmas.MemConcNonce
/-! # Lemmas about the memory store with several threads -/

namespace MemConc
open Py Association Store MemStore

/-- A way to reason about programs: worlds that only grow, what a program may ask in a world, and what it may
    rely on about the replies. -/
structure Logic where
  W : Type
  Le : W → W → Prop
  refl : ∀ w, Le w w
  trans : ∀ {a b c}, Le a b → Le b c → Le a c
  A : W → Call → Prop
  R : W → (q : Call) → Reply q → Prop

def Good (L : Logic) (F : L.W → Except PyErr α → Prop) : L.W → Prog α → Prop
  | w, .done r => ∀ w', L.Le w w' → F w' r
  | w, .call q k => (∀ w', L.Le w w' → L.A w' q) ∧ ∀ w', L.Le w w' → ∀ r, L.R w' q r → Good L F w' (k r)

theorem Good.mono {L : Logic} {F : L.W → Except PyErr α → Prop} {w w' : L.W} {p : Prog α}
    (h : Good L F w p) (hw : L.Le w w') : Good L F w' p := by
  cases p with
  | done r => exact fun w'' h' => h w'' (L.trans hw h')
  | call q k => exact ⟨fun w'' h' => h.1 w'' (L.trans hw h'), fun w'' h' => h.2 w'' (L.trans hw h')⟩

theorem Good.bind {L : Logic} {G : L.W → Except PyErr α → Prop} {F : L.W → Except PyErr β → Prop} {w : L.W}
    {p : Prog α} {f : α → Prog β} (h : Good L G w p)
    (hok : ∀ w', L.Le w w' → ∀ a, G w' (.ok a) → Good L F w' (f a))
    (herr : ∀ w', L.Le w w' → ∀ e, G w' (.error e) → F w' (.error e)) : Good L F w (p.bind f) := by
  induction p generalizing w with
  | done r =>
    cases r with
    | ok a => exact hok w (L.refl w) a (h w (L.refl w))
    | error e => exact fun w' hw => herr w' hw e (h w' hw)
  | call q k ih =>
    refine ⟨h.1, fun w' hw r hr => ih r (h.2 w' hw r hr) ?_ ?_⟩
    · exact fun w'' h' => hok w'' (L.trans hw h')
    · exact fun w'' h' => herr w'' (L.trans hw h')

theorem Good.bind' {L : Logic} {G : L.W → Except PyErr α → Prop} {F : L.W → Except PyErr β → Prop} {w : L.W}
    {p : Prog α} {f : α → Prog β} (h : Good L G w p)
    (hok : ∀ w', L.Le w w' → ∀ a, G w' (.ok a) → Good L F w' (f a))
    (herr : ∀ w', L.Le w w' → ∀ e, G w' (.error e) → F w' (.error e)) : Good L F w (p >>= f) := Good.bind h hok herr

theorem Good.weaken {L : Logic} {G F : L.W → Except PyErr α → Prop} {w : L.W} {p : Prog α} (h : Good L G w p)
    (hf : ∀ w' r, L.Le w w' → G w' r → F w' r) : Good L F w p := by
  induction p generalizing w with
  | done r => exact fun w' hw => hf w' r hw (h w' hw)
  | call q k ih =>
    exact ⟨h.1, fun w' hw r hr => ih r (h.2 w' hw r hr) fun w'' x h' => hf w'' x (L.trans hw h')⟩

/-! ## What lookups answer and what is raised -/

structure Point where
  started : List Op
  next : Nat
  owner : Nat → Str

/-- the association was stored, for the server the object was made for -/
def Point.Stored (w : Point) (x : Nat) (a : Assoc) : Prop := x < w.next ∧ Op.storeAssociation (w.owner x) a ∈ w.started

def Point.Made (w : Point) (url : Str) (x : Nat) : Prop := x < w.next ∧ w.owner x = url

structure Point.Le (w w' : Point) : Prop where
  started : ∀ op ∈ w.started, op ∈ w'.started
  next : w.next ≤ w'.next
  owner : ∀ x < w.next, w'.owner x = w.owner x

theorem Point.Le.rfl' (w : Point) : w.Le w := ⟨fun _ h => h, Nat.le_refl _, fun _ _ => rfl⟩

theorem Point.Le.trans {a b c : Point} (h : a.Le b) (h' : b.Le c) : a.Le c :=
  ⟨fun op ho => h'.1 op (h.1 op ho), Nat.le_trans h.2 h'.2,
    fun x hx => (h'.3 x (Nat.lt_of_lt_of_le hx h.2)).trans (h.3 x hx)⟩

theorem Point.Stored.mono {w w' : Point} {x : Nat} {a : Assoc} (h : w.Stored x a) (hw : w.Le w') : w'.Stored x a :=
  ⟨Nat.lt_of_lt_of_le h.1 hw.2, by rw [hw.3 x h.1]; exact hw.1 _ h.2⟩

theorem Point.Made.mono {w w' : Point} {x : Nat} {u : Str} (h : w.Made u x) (hw : w.Le w') : w'.Made u x :=
  ⟨Nat.lt_of_lt_of_le h.1 hw.2, by rw [hw.3 x h.1]; exact h.2⟩

def MayAsk (w : Point) : Call → Prop
  | .setAssoc x a => w.Stored x a
  | _ => True

def MayReply (w : Point) : (q : Call) → Reply q → Prop
  | .getServer u, r => ∀ x, r = some x → w.Made u x
  | .newServer u, r => w.Made u r
  | .getAssoc x h, r => ∀ a, r = some a → w.Stored x a ∧ a.handle = h
  | .nextAssoc x _, r => (∀ p, r = .ok (some p) → w.Stored x p.2) ∧ ∀ e, r = .error e → e = .runtimeError
  | .nextNonce _, r => ∀ e, r = .error e → e = .runtimeError
  | .nextServer _, r => ∀ e, r = .error e → e = .runtimeError
  | _, _ => True

def answering : Logic := ⟨Point, Point.Le, Point.Le.rfl', Point.Le.trans, MayAsk, MayReply⟩

/-- as `F`, or one of the two exceptions -/
def OrRaised (F : Point → α → Prop) (w : Point) : Except PyErr α → Prop
  | .ok a => F w a
  | .error e => e = .runtimeError ∨ e = .keyError

def OrStopped (F : Point → α → Prop) (w : Point) : Except PyErr α → Prop
  | .ok a => F w a
  | .error e => e = .runtimeError

/-- as `F`, without exceptions -/
def Surely (F : Point → α → Prop) (w : Point) : Except PyErr α → Prop
  | .ok a => F w a
  | .error _ => False

theorem good_getServerAssocs (url : Str) (w : Point) :
    Good answering (Surely fun w x => w.Made url x) w (getServerAssocs url) := by
  refine ⟨fun _ _ => trivial, fun w' hw r hr => ?_⟩
  cases r with
  | some x => exact fun w'' hw' => (hr x rfl).mono hw'
  | none => exact ⟨fun _ _ => trivial, fun w'' hw' r hr w3 hw3 => Point.Made.mono hr hw3⟩

theorem good_bestLoop (url : Str) (x : Nat) (n : Nat) (it : Iter) (b : Option Assoc) (w : Point)
    (hx : w.Made url x) (hb : ∀ a, b = some a → Op.storeAssociation url a ∈ w.started) :
    Good answering (OrStopped fun w r => ∀ a, r = some a → Op.storeAssociation url a ∈ w.started) w
      (bestLoop x n it b) := by
  induction n generalizing it b w with
  | zero => exact ⟨fun _ _ => trivial, fun _ _ r => nomatch r⟩
  | succ n ih =>
    refine ⟨fun _ _ => trivial, fun w' hw r hr => ?_⟩
    cases r with
    | error e => exact fun w'' hw' => hr.2 e rfl
    | ok r =>
      cases r with
      | none => exact fun w'' hw' a ha => hw'.1 _ (hw.1 _ (hb a ha))
      | some p =>
        refine ih _ _ _ (hx.mono hw) fun a ha => ?_
        have hp : Op.storeAssociation url p.2 ∈ w'.started := by
          have h1 := (hr.1 p rfl).2
          rwa [(hx.mono hw).2] at h1
        cases b with
        | none => simp [ServerAssocs.better] at ha; rw [← ha]; exact hp
        | some b =>
          simp only [ServerAssocs.better] at ha
          split at ha
          · simp at ha; rw [← ha]; exact hp
          · exact hw.1 _ (hb a ha)

theorem good_staleLoop (c : Clock) (now n : Nat) (it : Iter) (w : Point) :
    Good answering (OrStopped fun _ _ => True) w (staleLoop c now n it) := by
  induction n generalizing it w with
  | zero => exact ⟨fun _ _ => trivial, fun _ _ r => nomatch r⟩
  | succ n ih =>
    refine ⟨fun _ _ => trivial, fun w' hw r hr => ?_⟩
    cases r with
    | error e => exact fun w'' hw' => hr e rfl
    | ok r =>
      cases r with
      | none => exact fun w'' hw' => trivial
      | some p => exact Good.bind' (ih it.step w') (fun _ _ _ _ _ _ => trivial) fun _ _ e he => he

theorem good_delNonces (l : List NonceKey) (w : Point) :
    Good answering (OrRaised fun _ _ => True) w (delNonces l) := by
  induction l generalizing w with
  | nil => exact fun _ _ => trivial
  | cons k r ih =>
    refine ⟨fun _ _ => trivial, fun w' hw b _ => ?_⟩
    cases b with
    | true => exact ih w'
    | false => exact fun _ _ => .inr rfl

theorem good_delAssocs (x : Nat) (l : List Str) (w : Point) :
    Good answering (OrRaised fun _ _ => True) w (delAssocs x l) := by
  induction l generalizing w with
  | nil => exact fun _ _ => trivial
  | cons k r ih =>
    refine ⟨fun _ _ => trivial, fun w' hw b _ => ?_⟩
    cases b with
    | true => exact ih w'
    | false => exact fun _ _ => .inr rfl

theorem good_delServers (l : List Str) (w : Point) :
    Good answering (OrRaised fun _ _ => True) w (delServers l) := by
  induction l generalizing w with
  | nil => exact fun _ _ => trivial
  | cons k r ih =>
    refine ⟨fun _ _ => trivial, fun w' hw b _ => ?_⟩
    cases b with
    | true => exact ih w'
    | false => exact fun _ _ => .inr rfl

theorem good_expiredLoop (c : Clock) (x n : Nat) (it : Iter) (w : Point) :
    Good answering (OrStopped fun _ _ => True) w (expiredLoop c x n it) := by
  induction n generalizing it w with
  | zero => exact ⟨fun _ _ => trivial, fun _ _ r => nomatch r⟩
  | succ n ih =>
    refine ⟨fun _ _ => trivial, fun w' hw r hr => ?_⟩
    cases r with
    | error e => exact fun w'' hw' => hr.2 e rfl
    | ok r =>
      cases r with
      | none => exact fun w'' hw' => trivial
      | some p =>
        refine ⟨fun _ _ => trivial, fun w'' hw' now _ => ?_⟩
        exact Good.bind' (ih it.step w'') (fun _ _ _ _ _ _ => trivial) fun _ _ e he => he

theorem good_cleanup (c : Clock) (x : Nat) (w : Point) :
    Good answering (OrRaised fun _ _ => True) w (cleanup c x) := by
  refine ⟨fun _ _ => trivial, fun w' hw i _ => ?_⟩
  refine Good.bind' (good_expiredLoop c x _ _ w') (fun w1 h1 l _ => ?_) fun _ _ e he => .inl he
  refine Good.bind' (good_delAssocs x l w1) (fun w2 h2 _ _ => ?_) fun _ _ e he => he
  exact ⟨fun _ _ => trivial, fun _ _ _ _ _ _ => trivial⟩

theorem good_serverLoop (c : Clock) (n : Nat) (it : Iter) (w : Point) :
    Good answering (OrRaised fun _ _ => True) w (serverLoop c n it) := by
  induction n generalizing it w with
  | zero => exact ⟨fun _ _ => trivial, fun _ _ r => nomatch r⟩
  | succ n ih =>
    refine ⟨fun _ _ => trivial, fun w' hw r hr => ?_⟩
    cases r with
    | error e => exact fun w'' hw' => .inl (hr e rfl)
    | ok r =>
      cases r with
      | none => exact fun w'' hw' => trivial
      | some p =>
        refine Good.bind' (good_cleanup c p.2 w') (fun w1 h1 m _ => ?_) fun _ _ e he => he
        exact Good.bind' (ih it.step w1) (fun _ _ _ _ _ _ => trivial) fun _ _ e he => he

/-- what an operation may give -/
def Gives (op : Op) (w : Point) (r : Outcome) : Prop :=
  (∀ e, r = .error e → MayRaise op e) ∧
    ∀ url h a, op = .getAssociation url h → r = .ok (.assoc (some a)) → MayAnswer w.started url h a

theorem good_program (c : Clock) (op : Op) (w : Point) (hop : op ∈ w.started) :
    Good answering (Gives op) w (program c op) := by
  cases op with
  | storeAssociation url a =>
    refine Good.bind' (G := Surely fun _ _ => True) ?_ (fun w1 h1 _ _ w2 h2 => ⟨nofun, nofun⟩) fun _ _ e he => he.elim
    refine Good.bind' (good_getServerAssocs url w) (fun w1 h1 x hx => ?_) fun _ _ e he => he
    refine ⟨fun w2 h2 => ?_, fun _ _ _ _ _ _ => trivial⟩
    have hx2 : w2.Made url x := Point.Made.mono hx h2
    exact ⟨hx2.1, by rw [hx2.2]; exact h2.1 _ (h1.1 _ hop)⟩
  | getAssociation url h =>
    cases h with
    | none =>
      refine Good.bind' (G := OrStopped fun w r => ∀ a, r = some a → Op.storeAssociation url a ∈ w.started) ?_
        (fun w1 h1 r hr w2 h2 => ⟨nofun, ?_⟩) fun _ _ e he => ⟨fun e' he' => ?_, nofun⟩
      · refine Good.bind' (good_getServerAssocs url w) (fun w1 h1 x hx => ?_) fun _ _ e he => he.elim
        exact ⟨fun _ _ => trivial, fun w2 h2 i _ => good_bestLoop url x _ _ none w2 (hx.mono h2) nofun⟩
      · intro u hd a ho hr'
        simp only [Op.getAssociation.injEq] at ho
        simp only [Except.ok.injEq, Answer.assoc.injEq] at hr'
        obtain ⟨rfl, rfl⟩ := ho
        exact ⟨h2.1 _ (hr a hr'), nofun⟩
      · obtain rfl := Except.error.inj he'; exact he
    | some h =>
      refine Good.bind' (G := Surely fun w r => ∀ a, r = some a →
          Op.storeAssociation url a ∈ w.started ∧ a.handle = h) ?_
        (fun w1 h1 r hr w2 h2 => ⟨nofun, ?_⟩) fun _ _ e he => he.elim
      · refine Good.bind' (good_getServerAssocs url w) (fun w1 h1 x hx => ?_) fun _ _ e he => he.elim
        refine ⟨fun _ _ => trivial, fun w2 h2 r hr w3 h3 a ha => ?_⟩
        have := (hr a ha).1.2
        rw [(hx.mono h2).2] at this
        exact ⟨h3.1 _ this, (hr a ha).2⟩
      · intro u hd a ho hr'
        simp only [Op.getAssociation.injEq] at ho
        simp only [Except.ok.injEq, Answer.assoc.injEq] at hr'
        obtain ⟨rfl, rfl⟩ := ho
        refine ⟨h2.1 _ (hr a hr').1, fun h' hh => ?_⟩
        rw [← Option.some.inj hh]; exact (hr a hr').2
  | removeAssociation url h =>
    refine Good.bind' (G := Surely fun _ _ => True) ?_ (fun w1 h1 _ _ w2 h2 => ⟨nofun, nofun⟩) fun _ _ e he => he.elim
    refine Good.bind' (good_getServerAssocs url w) (fun w1 h1 x hx => ?_) fun _ _ e he => he
    exact ⟨fun _ _ => trivial, fun _ _ _ _ _ _ => trivial⟩
  | useNonce url t salt =>
    refine Good.bind' (G := Surely fun _ _ => True) ?_ (fun w1 h1 _ _ w2 h2 => ⟨nofun, nofun⟩) fun _ _ e he => he.elim
    refine ⟨fun _ _ => trivial, fun w1 _ now _ => ?_⟩
    simp only
    split
    · exact fun _ _ => trivial
    · refine ⟨fun _ _ => trivial, fun w2 _ b _ => ?_⟩
      cases b with
      | true => exact fun _ _ => trivial
      | false => exact ⟨fun _ _ => trivial, fun _ _ _ _ _ _ => trivial⟩
  | cleanupNonces =>
    refine Good.bind' (G := OrRaised fun _ _ => True) ?_ (fun w1 h1 _ _ w2 h2 => ⟨nofun, nofun⟩)
      fun _ _ e he => ⟨fun e' he' => by obtain rfl := Except.error.inj he'; exact he, nofun⟩
    refine ⟨fun _ _ => trivial, fun w1 _ now _ => ⟨fun _ _ => trivial, fun w2 _ i _ => ?_⟩⟩
    refine Good.bind' (good_staleLoop c now _ _ w2) (fun w3 _ l _ => ?_) fun _ _ e he => .inl he
    exact Good.bind' (good_delNonces l w3) (fun _ _ _ _ _ _ => trivial) fun _ _ e he => he
  | cleanupAssociations =>
    refine Good.bind' (G := OrRaised fun _ _ => True) ?_ (fun w1 h1 _ _ w2 h2 => ⟨nofun, nofun⟩)
      fun _ _ e he => ⟨fun e' he' => by obtain rfl := Except.error.inj he'; exact he, nofun⟩
    refine ⟨fun _ _ => trivial, fun w1 _ i _ => ?_⟩
    refine Good.bind' (good_serverLoop c _ _ w1) (fun w3 _ l _ => ?_) fun _ _ e he => he
    exact Good.bind' (good_delServers l.1 w3) (fun _ _ _ _ _ _ => trivial) fun _ _ e he => he

def Config.point (cfg : Config) : Point := ⟨cfg.started, cfg.state.next, cfg.state.owner⟩

/-- the objects belong to their servers, and what is in them was stored for them -/
structure Sound (w : Point) (s : State) : Prop where
  servers : ∀ u x, (u, x) ∈ s.servers.items → w.Made u x
  heap : ∀ x h a, (h, a) ∈ (s.heap x).items → w.Stored x a ∧ a.handle = h

theorem Sound.mono {w w' : Point} {s : State} (h : Sound w s) (hw : w.Le w') : Sound w' s :=
  ⟨fun u x hx => (h.servers u x hx).mono hw, fun x k a ha => ⟨(h.heap x k a ha).1.mono hw, (h.heap x k a ha).2⟩⟩

theorem mem_set [DecidableEq α] {d : Dict α β} {a : α} {v : β} {p : α × β} (h : p ∈ Dict.set d a v) :
    p = (a, v) ∨ p ∈ d := by
  induction d with
  | nil => simpa [Dict.set] using h
  | cons q r ih =>
    obtain ⟨k, x⟩ := q
    simp only [Dict.set] at h
    split at h
    · next hk =>
      rcases List.mem_cons.1 h with rfl | h
      · exact .inl (by simp_all)
      · exact .inr (List.mem_cons_of_mem _ h)
    · rcases List.mem_cons.1 h with rfl | h
      · exact .inr (by simp)
      · exact (ih h).imp_right (List.mem_cons_of_mem _)

theorem mem_dictDel [DecidableEq α] {d : Dict α β} {a : α} {p : α × β} (h : p ∈ Dict.del d a) : p ∈ d := by
  induction d with
  | nil => simp [Dict.del] at h
  | cons q r ih =>
    simp only [Dict.del] at h
    split at h
    · exact List.mem_cons_of_mem _ h
    · rcases List.mem_cons.1 h with rfl | h
      · simp
      · exact List.mem_cons_of_mem _ (ih h)

theorem mem_del [DecidableEq α] {t : Table α β} {a : α} {p : α × β} (h : p ∈ (t.del a).items) : p ∈ t.items := by
  unfold Table.del at h
  split at h
  · exact mem_dictDel h
  · exact h

theorem next_mem [DecidableEq α] {t : Table α β} {it : Iter} {r : Except PyErr (Option (α × β))} (h : t.Next it r) :
    (∀ p, r = .ok (some p) → p ∈ t.items) ∧ ∀ e, r = .error e → e = .runtimeError := by
  cases h with
  | same h => exact ⟨fun p hp => List.mem_of_getElem? (by simpa using hp), nofun⟩
  | size h => exact ⟨nofun, fun e he => (Except.error.inj he).symm⟩
  | other _ h h' hp he => exact ⟨hp, he⟩

theorem perform_sound {clock : Nat} {started : List Op} {q : Call} {s s' : State} {r : Reply q}
    (h : Sound ⟨started, s.next, s.owner⟩ s) (ha : MayAsk ⟨started, s.next, s.owner⟩ q)
    (hp : Perform clock q s r s') :
    Point.Le ⟨started, s.next, s.owner⟩ ⟨started, s'.next, s'.owner⟩ ∧ Sound ⟨started, s'.next, s'.owner⟩ s' ∧
      MayReply ⟨started, s'.next, s'.owner⟩ q r := by
  cases q with
  | never => exact hp.elim
  | setNonce k => rw [hp]; exact ⟨.rfl' _, ⟨h.servers, h.heap⟩, trivial⟩
  | delNonce k => rw [hp.2]; exact ⟨.rfl' _, ⟨h.servers, h.heap⟩, trivial⟩
  | newServer u =>
    obtain ⟨hr, rfl⟩ := hp
    have hle : Point.Le ⟨started, s.next, s.owner⟩
        ⟨started, s.next + 1, fun y => if y = s.next then u else s.owner y⟩ :=
      ⟨fun _ h => h, Nat.le_succ _, fun x hx => if_neg (Nat.ne_of_lt hx)⟩
    refine ⟨hle, ⟨fun u' x hx => ?_, fun x k a hk => ?_⟩, ?_⟩
    · rcases mem_set hx with heq | hx
      · simp only [Prod.mk.injEq] at heq
        obtain ⟨rfl, rfl⟩ := heq
        exact ⟨Nat.lt_succ_self _, if_pos rfl⟩
      · exact (h.servers u' x hx).mono hle
    · simp only at hk
      split at hk
      · cases hk
      · exact ⟨(h.heap x k a hk).1.mono hle, (h.heap x k a hk).2⟩
    · show Point.Made _ u r
      rw [hr]
      exact ⟨Nat.lt_succ_self _, if_pos rfl⟩
  | delServer u => rw [hp.2]; exact ⟨.rfl' _, ⟨fun u x hx => h.servers u x (mem_del hx), h.heap⟩, trivial⟩
  | setAssoc x a =>
    rw [hp]
    refine ⟨.rfl' _, ⟨h.servers, fun y k b hk => ?_⟩, trivial⟩
    simp only [State.putAssocs] at hk
    split at hk
    · next hy =>
      subst hy
      rcases mem_set hk with heq | hk
      · simp only [Prod.mk.injEq] at heq
        obtain ⟨rfl, rfl⟩ := heq
        exact ⟨ha, rfl⟩
      · exact h.heap _ k b hk
    · exact h.heap y k b hk
  | delAssoc x hd =>
    rw [hp.2]
    refine ⟨.rfl' _, ⟨h.servers, fun y k b hk => ?_⟩, trivial⟩
    simp only [State.putAssocs] at hk
    split at hk
    · next hy => subst hy; exact h.heap _ k b (mem_del hk)
    · exact h.heap y k b hk
  | getServer u =>
    obtain ⟨hr, rfl⟩ := hp
    exact ⟨.rfl' _, h, fun x hx => h.servers u x (Dict.get?_mem _ _ _ (hr ▸ hx))⟩
  | getAssoc x hd =>
    obtain ⟨hr, rfl⟩ := hp
    exact ⟨.rfl' _, h, fun a ha => h.heap x hd a (Dict.get?_mem _ _ _ (hr ▸ ha))⟩
  | nextAssoc x it =>
    obtain ⟨hr, rfl⟩ := hp
    exact ⟨.rfl' _, h, fun p hp => (h.heap x p.1 p.2 ((next_mem hr).1 p hp)).1, (next_mem hr).2⟩
  | nextNonce it =>
    obtain ⟨hr, rfl⟩ := hp
    exact ⟨.rfl' _, h, (next_mem hr).2⟩
  | nextServer it =>
    obtain ⟨hr, rfl⟩ := hp
    exact ⟨.rfl' _, h, (next_mem hr).2⟩
  | _ => rw [hp.2]; exact ⟨.rfl' _, h, trivial⟩

/-- What holds in every configuration. -/
structure Always (cfg : Config) : Prop where
  sound : Sound cfg.point cfg.state
  clients : ∀ i cl, cfg.clients i = some cl → Good answering (Gives cl.op) cfg.point cl.todo
  outs : ∀ x ∈ cfg.returned, Gives x.op cfg.point x.outcome

theorem Gives.mono {op : Op} {w w' : Point} {r : Outcome} (h : Gives op w r) (hw : w.Le w') : Gives op w' r :=
  ⟨h.1, fun url hd a ho hr => ⟨hw.1 _ (h.2 url hd a ho hr).1, (h.2 url hd a ho hr).2⟩⟩

theorem always_step {c : Clock} {allowed : Config → Client → Prop} {cfg cfg' : Config} (h : Always cfg)
    (hs : Step c allowed cfg cfg') : Always cfg' := by
  cases hs with
  | tick t hl => exact ⟨h.sound, h.clients, h.outs⟩
  | start i op hi =>
    have hle : cfg.point.Le ⟨op :: cfg.started, cfg.state.next, cfg.state.owner⟩ :=
      ⟨fun o ho => List.mem_cons_of_mem _ ho, Nat.le_refl _, fun _ _ => rfl⟩
    refine ⟨h.sound.mono hle, fun j cl hj => ?_, fun x hx => (h.outs x hx).mono hle⟩
    rcases put_some hj with ⟨-, hj⟩ | ⟨-, hj⟩
    · obtain rfl := Option.some.inj hj
      exact good_program c op _ (List.mem_cons_self ..)
    · exact (h.clients j cl hj).mono hle
  | call i op b q k r s hi ha hp =>
    have hg := h.clients i _ hi
    obtain ⟨hle, h1, h2⟩ := perform_sound h.sound (hg.1 _ (Point.Le.rfl' _)) hp
    refine ⟨h1, fun j cl hj => ?_, fun x hx => (h.outs x hx).mono hle⟩
    rcases put_some hj with ⟨-, hj⟩ | ⟨-, hj⟩
    · obtain rfl := Option.some.inj hj
      exact hg.2 _ hle r h2
    · exact (h.clients j cl hj).mono hle
  | finish i op b r hi =>
    refine ⟨h.sound, fun j cl hj => ?_, fun x hx => ?_⟩
    · rcases put_some hj with ⟨-, hj⟩ | ⟨-, hj⟩
      · cases hj
      · exact h.clients j cl hj
    · rcases List.mem_cons.1 hx with rfl | hx
      · exact h.clients i _ hi _ (Point.Le.rfl' _)
      · exact h.outs x hx

theorem always {c : Clock} {allowed : Config → Client → Prop} {cfg : Config} (h : Reachable c allowed cfg) :
    Always cfg := by
  induction h with
  | refl => exact ⟨⟨nofun, nofun⟩, nofun, nofun⟩
  | step _ h2 ih => exact always_step ih h2

end MemConc
