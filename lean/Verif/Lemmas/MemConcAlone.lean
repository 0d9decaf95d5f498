import Verif.Lemmas.MemConc
/-! # One thread of the memory store that nobody disturbs -/

namespace MemConc
open Py Association Store MemStore

theorem alone_done {α : Type} {clock : Nat} {r x : Except PyErr α} {s s' : State}
    (h : Alone clock (.done r) s x s') : x = r ∧ s' = s := by
  cases h; exact ⟨rfl, rfl⟩

theorem alone_call {α : Type} {clock : Nat} {q : Call} {k : Reply q → Prog α} {x : Except PyErr α} {s s'' : State}
    (h : Alone clock (.call q k) s x s'') : ∃ r s', Perform clock q s r s' ∧ Alone clock (k r) s' x s'' := by
  cases h
  exact ⟨_, _, ‹_›, ‹_›⟩

theorem alone_bind {α β : Type} {clock : Nat} {p : Prog α} {f : α → Prog β} {x : Except PyErr β} {s s'' : State}
    (h : Alone clock (p.bind f) s x s'') :
    (∃ a s', Alone clock p s (.ok a) s' ∧ Alone clock (f a) s' x s'') ∨
      ∃ e, x = .error e ∧ Alone clock p s (.error e) s'' := by
  induction p generalizing s with
  | done r =>
    cases r with
    | ok a => exact .inl ⟨a, s, .done _ _, h⟩
    | error e =>
      obtain ⟨h1, h2⟩ := alone_done h
      subst h1 h2
      exact .inr ⟨e, rfl, .done _ _⟩
  | call q k ih =>
    obtain ⟨r, s', h1, h2⟩ := alone_call h
    rcases ih r h2 with ⟨a, s1, h3, h4⟩ | ⟨e, h3, h4⟩
    · exact .inl ⟨a, s1, .call _ _ _ _ _ _ _ h1 h3, h4⟩
    · exact .inr ⟨e, h3, .call _ _ _ _ _ _ _ h1 h4⟩

/-- the case that the first program never raises -/
theorem alone_bind_ok {α β : Type} {clock : Nat} {p : Prog α} {f : α → Prog β} {x : Except PyErr β} {s s'' : State}
    (h : Alone clock (p >>= f) s x s'') (hp : ∀ r s', Alone clock p s r s' → ∃ a, r = .ok a) :
    ∃ a s', Alone clock p s (.ok a) s' ∧ Alone clock (f a) s' x s'' := by
  rcases alone_bind h with h | ⟨e, -, h⟩
  · exact h
  · obtain ⟨a, ha⟩ := hp _ _ h
    cases ha

theorem alone_pure {α : Type} {clock : Nat} {a : α} {x : Except PyErr α} {s s' : State}
    (h : Alone clock (pure a : Prog α) s x s') : x = .ok a ∧ s' = s := alone_done h

/-- an undisturbed iterator -/
theorem next_same [DecidableEq α] {t : Table α β} {pos : Nat} {r : Except PyErr (Option (α × β))}
    (h : t.Next ⟨t.items.length, t.stamp, pos⟩ r) : r = .ok t.items[pos]? := by
  cases h with
  | same h => rfl
  | size h => exact absurd rfl h
  | other _ h h' hp he => exact absurd rfl h

theorem drop_of_get {l : List α} {n : Nat} {a : α} (h : l[n]? = some a) : l.drop n = a :: l.drop (n + 1) := by
  obtain ⟨hn, h⟩ := List.getElem?_eq_some_iff.1 h
  rw [List.drop_eq_getElem_cons hn, h]

theorem drop_of_none {l : List α} {n : Nat} (h : l[n]? = none) : l.drop n = [] :=
  List.drop_eq_nil_of_le (List.getElem?_eq_none_iff.1 h)

theorem alone_bestLoop {clock x n pos : Nat} {b : Option Assoc} {s s' : State} {r : Except PyErr (Option Assoc)}
    (h : Alone clock (bestLoop x n ⟨(s.heap x).items.length, (s.heap x).stamp, pos⟩ b) s r s') :
    s' = s ∧ r = .ok (((s.heap x).items.drop pos).foldl (fun b p => ServerAssocs.better b p.2) b) := by
  induction n generalizing pos b with
  | zero => obtain ⟨r, -⟩ := alone_call h; exact r.elim
  | succ n ih =>
    obtain ⟨y, s1, ⟨h1, rfl⟩, h2⟩ := alone_call h
    have := next_same h1
    subst this
    generalize hg : (s1.heap x).items[pos]? = g at h2
    cases g with
    | none =>
      obtain ⟨rfl, rfl⟩ := alone_done h2
      rw [drop_of_none hg]; exact ⟨rfl, rfl⟩
    | some p =>
      rw [drop_of_get hg]
      exact ih h2

theorem alone_staleLoop {c : Clock} {now clock n pos : Nat} {s s' : State} {r : Except PyErr (List NonceKey)}
    (h : Alone clock (staleLoop c now n ⟨s.nonces.items.length, s.nonces.stamp, pos⟩) s r s') :
    s' = s ∧ r = .ok ((Dict.keys (s.nonces.items.drop pos)).filter fun k => outside c now k.2.1) := by
  induction n generalizing pos r s' with
  | zero => obtain ⟨r, -⟩ := alone_call h; exact r.elim
  | succ n ih =>
    obtain ⟨y, s1, ⟨h1, rfl⟩, h2⟩ := alone_call h
    have := next_same h1
    subst this
    generalize hg : s1.nonces.items[pos]? = g at h2
    cases g with
    | none =>
      obtain ⟨rfl, rfl⟩ := alone_done h2
      rw [drop_of_none hg]; exact ⟨rfl, rfl⟩
    | some p =>
      rw [drop_of_get hg]
      rcases alone_bind h2 with ⟨l, s2, h3, h4⟩ | ⟨e, -, h3⟩
      · obtain ⟨rfl, h5⟩ := ih h3
        obtain ⟨rfl, rfl⟩ := alone_pure h4
        obtain rfl := Except.ok.inj h5
        refine ⟨rfl, ?_⟩
        simp [Dict.keys, List.filter_cons]
      · exact nomatch (ih h3).2

theorem alone_expiredLoop {c : Clock} {x clock n pos : Nat} {s s' : State} {r : Except PyErr (List Str)}
    (h : Alone clock (expiredLoop c x n ⟨(s.heap x).items.length, (s.heap x).stamp, pos⟩) s r s') :
    s' = s ∧ r = .ok (ServerAssocs.expiredHandles (c.seconds clock) ((s.heap x).items.drop pos)) := by
  induction n generalizing pos r s' with
  | zero => obtain ⟨r, -⟩ := alone_call h; exact r.elim
  | succ n ih =>
    obtain ⟨y, s1, ⟨h1, rfl⟩, h2⟩ := alone_call h
    have := next_same h1
    subst this
    generalize hg : (s1.heap x).items[pos]? = g at h2
    cases g with
    | none =>
      obtain ⟨rfl, rfl⟩ := alone_done h2
      rw [drop_of_none hg]; exact ⟨rfl, rfl⟩
    | some p =>
      rw [drop_of_get hg]
      obtain ⟨now, s2, ⟨hn, rfl⟩, h2⟩ := alone_call h2
      subst hn
      rcases alone_bind h2 with ⟨l, s2, h3, h4⟩ | ⟨e, -, h3⟩
      · obtain ⟨rfl, h5⟩ := ih h3
        obtain ⟨rfl, rfl⟩ := alone_pure h4
        obtain rfl := Except.ok.inj h5
        refine ⟨rfl, ?_⟩
        simp only [ServerAssocs.expiredHandles, List.filter_cons]
        split <;> rfl
      · exact nomatch (ih h3).2

theorem has_iff_keys [DecidableEq α] (d : Dict α β) (a : α) : Dict.has d a = true ↔ a ∈ Dict.keys d := by
  rw [Dict.mem_keys_iff]; rfl

theorem alone_delNonces {clock : Nat} {l : List NonceKey} {s s' : State} {r : Except PyErr Unit} (ht : Tidy s)
    (hl : l.Nodup) (hk : ∀ k ∈ l, Dict.has s.nonces.items k = true) (h : Alone clock (delNonces l) s r s') :
    r = .ok () ∧ s'.nonces.items = l.foldl Dict.del s.nonces.items ∧ s'.servers = s.servers ∧ s'.heap = s.heap := by
  induction l generalizing s with
  | nil => obtain ⟨rfl, rfl⟩ := alone_done h; exact ⟨rfl, rfl, rfl, rfl⟩
  | cons k l ih =>
    obtain ⟨b, s1, hp, h1⟩ := alone_call h
    obtain ⟨hb, hs1⟩ := hp
    have hkk := hk k (by simp)
    rw [hkk] at hb
    subst hb
    have hs1' : s1.nonces.items = Dict.del s.nonces.items k := by
      rw [hs1]
      simp only [Table.del, hkk, if_true]
    have ht1 : Tidy s1 := by rw [hs1]; exact ⟨Table.WF_del ht.nonces _, ht.servers, ht.heap⟩
    obtain ⟨h2, h3, h4, h5⟩ := ih ht1 (List.nodup_cons.1 hl).2 (fun k' hk' => by
      rw [hs1', has_del_ne _ ht.nonces _ _ (fun (he : k' = k) => (List.nodup_cons.1 hl).1 (he ▸ hk'))]
      exact hk k' (by simp [hk'])) h1
    refine ⟨h2, ?_, ?_, ?_⟩
    · rw [h3, hs1']; rfl
    · rw [h4, hs1]
    · rw [h5, hs1]

theorem alone_delServers {clock : Nat} {l : List Str} {s s' : State} {r : Except PyErr Unit} (ht : Tidy s)
    (hl : l.Nodup) (hk : ∀ k ∈ l, Dict.has s.servers.items k = true) (h : Alone clock (delServers l) s r s') :
    r = .ok () ∧ s'.servers.items = l.foldl Dict.del s.servers.items ∧ s'.nonces = s.nonces ∧ s'.heap = s.heap := by
  induction l generalizing s with
  | nil => obtain ⟨rfl, rfl⟩ := alone_done h; exact ⟨rfl, rfl, rfl, rfl⟩
  | cons k l ih =>
    obtain ⟨b, s1, hp, h1⟩ := alone_call h
    obtain ⟨hb, hs1⟩ := hp
    have hkk := hk k (by simp)
    rw [hkk] at hb
    subst hb
    have hs1' : s1.servers.items = Dict.del s.servers.items k := by
      rw [hs1]
      simp only [Table.del, hkk, if_true]
    have ht1 : Tidy s1 := by rw [hs1]; exact ⟨ht.nonces, Table.WF_del ht.servers _, ht.heap⟩
    obtain ⟨h2, h3, h4, h5⟩ := ih ht1 (List.nodup_cons.1 hl).2 (fun k' hk' => by
      rw [hs1', has_del_ne _ ht.servers _ _ (fun (he : k' = k) => (List.nodup_cons.1 hl).1 (he ▸ hk'))]
      exact hk k' (by simp [hk'])) h1
    refine ⟨h2, ?_, ?_, ?_⟩
    · rw [h3, hs1']; rfl
    · rw [h4, hs1]
    · rw [h5, hs1]

/-- nothing but the object `x` has changed -/
structure OnlyAt (x : Nat) (s s' : State) : Prop where
  nonces : s'.nonces = s.nonces
  servers : s'.servers = s.servers
  heap : ∀ y, y ≠ x → s'.heap y = s.heap y

theorem alone_delAssocs {clock x : Nat} {l : List Str} {s s' : State} {r : Except PyErr Unit} (ht : Tidy s)
    (hl : l.Nodup) (hk : ∀ k ∈ l, Dict.has (s.heap x).items k = true) (h : Alone clock (delAssocs x l) s r s') :
    r = .ok () ∧ (s'.heap x).items = l.foldl Dict.del (s.heap x).items ∧ OnlyAt x s s' ∧ Tidy s' := by
  induction l generalizing s with
  | nil => obtain ⟨rfl, rfl⟩ := alone_done h; exact ⟨rfl, rfl, ⟨rfl, rfl, fun _ _ => rfl⟩, ht⟩
  | cons k l ih =>
    obtain ⟨b, s1, hp, h1⟩ := alone_call h
    have ht1 : Tidy s1 := ht.perform hp
    obtain ⟨hb, hs1⟩ := hp
    have hkk := hk k (by simp)
    rw [hkk] at hb
    subst hb
    have hs1' : (s1.heap x).items = Dict.del (s.heap x).items k := by
      rw [hs1]
      simp only [State.putAssocs, if_true, Table.del, hkk]
    obtain ⟨h2, h3, h4, h5⟩ := ih ht1 (List.nodup_cons.1 hl).2 (fun k' hk' => by
      rw [hs1', has_del_ne _ (ht.heap x) _ _ (fun (he : k' = k) => (List.nodup_cons.1 hl).1 (he ▸ hk'))]
      exact hk k' (by simp [hk'])) h1
    refine ⟨h2, ?_, ⟨?_, ?_, fun y hy => ?_⟩, h5⟩
    · rw [h3, hs1']; rfl
    · rw [h4.nonces, hs1]; rfl
    · rw [h4.servers, hs1]; rfl
    · rw [h4.heap y hy, hs1]; simp only [State.putAssocs, if_neg hy]

theorem keys_filter_nodup [DecidableEq α] {d : Dict α β} (hd : Dict.WF d) (f : α × β → Bool) :
    ((d.filter f).map (·.1)).Nodup ∧ ∀ k ∈ (d.filter f).map (·.1), Dict.has d k = true := by
  refine ⟨List.Nodup.sublist (List.filter_sublist.map _) hd, fun k hk => (has_iff_keys _ _).2 ?_⟩
  obtain ⟨p, hp, rfl⟩ := List.mem_map.1 hk
  exact List.mem_map.2 ⟨p, (List.mem_filter.1 hp).1, rfl⟩

theorem alone_cleanup {c : Clock} {clock x : Nat} {s s' : State} {r : Except PyErr (Nat × Nat)} (ht : Tidy s)
    (h : Alone clock (cleanup c x) s r s') :
    (s'.heap x).items = (ServerAssocs.cleanup (c.seconds clock) (s.heap x).items).1 ∧
      r = .ok ((ServerAssocs.cleanup (c.seconds clock) (s.heap x).items).2, (s'.heap x).items.length) ∧
      OnlyAt x s s' ∧ Tidy s' := by
  obtain ⟨i, s1, ⟨hi, rfl⟩, h1⟩ := alone_call h
  obtain ⟨i1, i2⟩ := i
  simp only at hi h1
  subst hi
  have hnd := keys_filter_nodup (ht.heap x) fun p => p.2.getExpiresIn (c.seconds clock) == 0
  obtain ⟨l, s2, h2, h3⟩ := alone_bind_ok h1 fun r s' h => ⟨_, (alone_expiredLoop h).2⟩
  obtain ⟨rfl, hl⟩ := alone_expiredLoop h2
  obtain rfl := Except.ok.inj hl
  simp only [List.drop_zero] at h3
  obtain ⟨_, s3, h4, h5⟩ := alone_bind_ok h3 fun r s' h => ⟨(), (alone_delAssocs ht hnd.1 hnd.2 h).1⟩
  obtain ⟨-, h6, h7, h8⟩ := alone_delAssocs ht hnd.1 hnd.2 h4
  obtain ⟨n, s4, ⟨hn, rfl⟩, h9⟩ := alone_call h5
  subst hn
  obtain ⟨rfl, rfl⟩ := alone_pure h9
  exact ⟨h6, rfl, h7, h8⟩

theorem alone_serverLoop {c : Clock} {clock n pos : Nat} {s s' : State} {r : Except PyErr (List Str × Nat)}
    (ht : Tidy s) (hu : ((s.servers.items.drop pos).map (·.2)).Nodup)
    (h : Alone clock (serverLoop c n ⟨s.servers.items.length, s.servers.stamp, pos⟩) s r s') :
    s'.nonces = s.nonces ∧ s'.servers = s.servers ∧ Tidy s' ∧
      (∀ y, y ∉ (s.servers.items.drop pos).map (·.2) → s'.heap y = s.heap y) ∧
      (∀ p ∈ s.servers.items.drop pos,
        (s'.heap p.2).items = (ServerAssocs.cleanup (c.seconds clock) (s.heap p.2).items).1) ∧
      r = .ok (((s.servers.items.drop pos).filter fun p => (s'.heap p.2).items.length == 0).map (·.1),
        ((s.servers.items.drop pos).map fun p =>
          (ServerAssocs.cleanup (c.seconds clock) (s.heap p.2).items).2).sum) := by
  induction n generalizing pos s r s' with
  | zero => obtain ⟨r, -⟩ := alone_call h; exact r.elim
  | succ n ih =>
    obtain ⟨y, s1, ⟨h1, rfl⟩, h2⟩ := alone_call h
    have := next_same h1
    subst this
    generalize hg : s1.servers.items[pos]? = g at h2
    cases g with
    | none =>
      obtain ⟨rfl, rfl⟩ := alone_done h2
      rw [drop_of_none hg]
      exact ⟨rfl, rfl, ht, fun _ _ => rfl, nofun, rfl⟩
    | some p =>
      rw [drop_of_get hg] at hu ⊢
      obtain ⟨hu1, hu2⟩ := List.nodup_cons.1 hu
      obtain ⟨m, s2, h3, h4⟩ := alone_bind_ok h2 fun r s' h => ⟨_, (alone_cleanup ht h).2.1⟩
      obtain ⟨h5, h6, h7, h8⟩ := alone_cleanup ht h3
      obtain rfl := Except.ok.inj h6
      rw [← h7.servers] at hu2
      have hrec : ∀ {r s'}, Alone clock (serverLoop c n
          (Iter.step ⟨s1.servers.items.length, s1.servers.stamp, pos⟩)) s2 r s' → _ := fun {r s'} h =>
        ih (s := s2) (pos := pos + 1) (r := r) (s' := s') h8 hu2 (by rw [h7.servers]; exact h)
      obtain ⟨l, s3, h9, h10⟩ := alone_bind_ok h4 fun r s' h => ⟨_, (hrec h).2.2.2.2.2⟩
      obtain ⟨i1, i2, i3, i4, i5, i6⟩ := hrec h9
      obtain rfl := Except.ok.inj i6
      obtain ⟨rfl, rfl⟩ := alone_pure h10
      rw [h7.servers] at i2 i4 i5
      have hp3 : s'.heap p.2 = s2.heap p.2 := i4 _ hu1
      have hold : ∀ q ∈ s1.servers.items.drop (pos + 1), s2.heap q.2 = s1.heap q.2 := fun q hq =>
        h7.heap _ fun he => hu1 (List.mem_map.2 ⟨q, hq, he⟩)
      refine ⟨i1.trans h7.nonces, i2, i3, fun y hy => ?_, fun q hq => ?_, ?_⟩
      · simp only [List.map_cons, List.mem_cons, not_or] at hy
        rw [i4 y hy.2, h7.heap y hy.1]
      · rcases List.mem_cons.1 hq with rfl | hq
        · rw [hp3, h5]
        · rw [i5 q hq, hold q hq]
      · rw [h7.servers]
        simp only [List.map_cons, List.sum_cons, List.filter_cons, hp3, beq_iff_eq]
        have hmap : (s1.servers.items.drop (pos + 1)).map (fun p => (ServerAssocs.cleanup (c.seconds clock) (s2.heap p.2).items).2)
            = (s1.servers.items.drop (pos + 1)).map (fun p => (ServerAssocs.cleanup (c.seconds clock) (s1.heap p.2).items).2) :=
          List.map_congr_left fun q hq => by rw [hold q hq]
        rw [hmap]
        split <;> rfl

/-! ## The view -/

section
variable {α β γ : Type} [DecidableEq α]

theorem get?_mapValues (d : Dict α β) (f : β → γ) (a : α) :
    Dict.get? (d.map fun p => (p.1, f p.2)) a = (Dict.get? d a).map f := by
  induction d with
  | nil => rfl
  | cons p r ih =>
    obtain ⟨k, v⟩ := p
    simp only [List.map_cons, Dict.get?_cons]
    split
    · rfl
    · exact ih

theorem del_mapValues (d : Dict α β) (f : β → γ) (a : α) :
    Dict.del (d.map fun p => (p.1, f p.2)) a = (Dict.del d a).map fun p => (p.1, f p.2) := by
  induction d with
  | nil => rfl
  | cons p r ih =>
    obtain ⟨k, v⟩ := p
    simp only [List.map_cons, Dict.del]
    split
    · rfl
    · rw [ih]; rfl

theorem foldl_del_mapValues (l : List α) (d : Dict α β) (f : β → γ) :
    l.foldl Dict.del (d.map fun p => (p.1, f p.2)) = (l.foldl Dict.del d).map fun p => (p.1, f p.2) := by
  induction l generalizing d with
  | nil => rfl
  | cons a l ih => rw [List.foldl_cons, List.foldl_cons, del_mapValues, ih]

theorem set_mapValues_new (d : Dict α β) (f : β → γ) (a : α) (v : β) (h : Dict.get? d a = none) :
    (Dict.set d a v).map (fun p => (p.1, f p.2)) = Dict.set (d.map fun p => (p.1, f p.2)) a (f v) ∧
      Dict.set d a v = d ++ [(a, v)] := by
  induction d with
  | nil => exact ⟨rfl, rfl⟩
  | cons p r ih =>
    obtain ⟨k, x⟩ := p
    rw [Dict.get?_cons] at h
    split at h
    · cases h
    · next hk =>
      obtain ⟨h1, h2⟩ := ih h
      simp only [List.map_cons, Dict.set, if_neg hk, h1]
      exact ⟨trivial, by rw [h2]; rfl⟩

theorem set_mapValues_at (d : Dict α β) (f g : β → γ) (a : α) (x : β) (hd : Dict.WF d) (h : Dict.get? d a = some x)
    (hg : ∀ p ∈ d, p.1 ≠ a → g p.2 = f p.2) :
    d.map (fun p => (p.1, g p.2)) = Dict.set (d.map fun p => (p.1, f p.2)) a (g x) := by
  induction d with
  | nil => cases h
  | cons p r ih =>
    obtain ⟨k, v⟩ := p
    rw [Dict.get?_cons] at h
    simp only [List.map_cons, Dict.set]
    split at h
    · next hk =>
      obtain rfl := Option.some.inj h
      rw [if_pos hk]
      congr 1
      refine List.map_congr_left fun q hq => ?_
      have hne : q.1 ≠ a := fun he => (List.nodup_cons.1 hd).1 (by
        rw [hk, ← he]; exact List.mem_map.2 ⟨q, hq, rfl⟩)
      rw [hg q (List.mem_cons_of_mem _ hq) hne]
    · next hk =>
      rw [if_neg hk, hg (k, v) (List.mem_cons_self ..) hk, ih (List.nodup_cons.1 hd).2 h fun q hq => hg q (List.mem_cons_of_mem _ hq)]

end

/-- every object belongs to one server -/
def Apart (s : State) : Prop := ∀ u x, (u, x) ∈ s.servers.items → x < s.next ∧ s.owner x = u

theorem Apart.nodup {s : State} (h : Apart s) (ht : Tidy s) : (s.servers.items.map (·.2)).Nodup := by
  have : (s.servers.items.map (·.1)).Nodup := ht.servers
  refine List.Pairwise.of_map (S := (· ≠ ·)) s.owner (fun a b h he => h (congrArg _ he)) ?_
  rw [List.map_map]
  have he : s.servers.items.map (s.owner ∘ (·.2)) = s.servers.items.map (·.1) :=
    List.map_congr_left fun p hp => (h p.1 p.2 hp).2
  rw [he]; exact this

/-- the view after the object of a server was changed -/
theorem view_put {s : State} (ht : Tidy s) (ha : Apart s) {url : Str} {x : Nat} (t : Table Str Assoc)
    (hx : Dict.get? s.servers.items url = some x) :
    (s.putAssocs x t).view = MemStore.putServerAssocs s.view url t.items := by
  simp only [State.view, MemStore.putServerAssocs, State.putAssocs, MemStore.State.mk.injEq, and_true]
  have := set_mapValues_at s.servers.items (fun y => (s.heap y).items)
    (fun y => (if y = x then t else s.heap y).items) url x ht.servers hx (fun p hp hne => by
      have h1 := (ha p.1 p.2 hp).2
      have h2 := (ha url x (Dict.get?_mem _ _ _ hx)).2
      rw [if_neg]
      rintro rfl
      exact hne (h1.symm.trans h2))
  simp only [if_true] at this
  exact this

/-- `_getServerAssocs` -/
theorem alone_getServerAssocs {clock : Nat} {url : Str} {s s' : State} {r : Except PyErr Nat} (ht : Tidy s)
    (ha : Apart s) (h : Alone clock (getServerAssocs url) s r s') :
    ∃ x, r = .ok x ∧ Tidy s' ∧ Apart s' ∧ Dict.get? s'.servers.items url = some x ∧
      s'.view = (MemStore.getServerAssocs s.view url).1 ∧
      (s'.heap x).items = (MemStore.getServerAssocs s.view url).2 := by
  obtain ⟨o, s1, ⟨ho, rfl⟩, h1⟩ := alone_call h
  have hv : Dict.get? s1.view.serverAssocs url = (o : Option Nat).map fun y => (s1.heap y).items := by
    rw [ho]; exact get?_mapValues s1.servers.items (fun y => (s1.heap y).items) url
  cases o with
  | some x =>
    obtain ⟨rfl, rfl⟩ := alone_done h1
    refine ⟨x, rfl, ht, ha, ho.symm, ?_, ?_⟩ <;>
      · simp only [MemStore.getServerAssocs]
        rw [hv]
        rfl
  | none =>
    obtain ⟨x, s2, hp, h2⟩ := alone_call h1
    have ht2 := ht.perform hp
    obtain ⟨hx, hs2⟩ := hp
    obtain ⟨rfl, rfl⟩ := alone_done h2
    have hnew := set_mapValues_new s1.servers.items
      (fun y => (if y = s1.next then Table.empty else s1.heap y : Table Str Assoc).items) url s1.next ho.symm
    refine ⟨x, rfl, ht2, fun u y hy => ?_, ?_, ?_, ?_⟩
    · rw [hs2] at hy ⊢
      rcases mem_set hy with heq | hy
      · simp only [Prod.mk.injEq] at heq
        obtain ⟨rfl, rfl⟩ := heq
        exact ⟨Nat.lt_succ_self _, if_pos rfl⟩
      · have := ha u y hy
        exact ⟨Nat.lt_succ_of_lt this.1, by simp only; rw [if_neg (Nat.ne_of_lt this.1)]; exact this.2⟩
    · rw [hs2, hx]
      show Dict.get? (Dict.set s1.servers.items url s1.next) url = some s1.next
      rw [Dict.get?_set, if_pos rfl]
    · simp only [MemStore.getServerAssocs]
      rw [hv]
      simp only [Option.map_none]
      rw [hs2]
      simp only [State.view, MemStore.State.mk.injEq, and_true]
      refine hnew.1.trans ?_
      simp only [if_true]
      congr 1
      refine List.map_congr_left fun p hp => ?_
      rw [if_neg (Nat.ne_of_lt (ha p.1 p.2 hp).1)]
    · simp only [MemStore.getServerAssocs]
      rw [hv, hs2, hx]
      simp only [Option.map_none, if_true]
      rfl

/-- **one thread alone is the memory store of one thread** -/
theorem alone_program {c : Clock} {clock : Nat} {op : Op} {s s' : State} {r : Outcome} (ht : Tidy s) (ha : Apart s)
    (h : Alone clock (program c op) s r s') :
    s'.view = (MemStore.step c s.view (clock, op)).1 ∧ r = .ok (MemStore.step c s.view (clock, op)).2 := by
  have hgs : ∀ (url : Str) r s', Alone clock (getServerAssocs url) s r s' → ∃ a, r = .ok a := fun url r s' h =>
    let ⟨x, hx, _⟩ := alone_getServerAssocs ht ha h
    ⟨x, hx⟩
  cases op with
  | storeAssociation url a =>
    have key : ∀ {r s'}, Alone clock (storeAssociation url a) s r s' → r = .ok () ∧
        s'.view = MemStore.storeAssociation s.view url a := by
      intro r s' h
      obtain ⟨x, s1, h1, h2⟩ := alone_bind_ok h (hgs url)
      obtain ⟨x', hx', ht1, ha1, hx1, hv, hh⟩ := alone_getServerAssocs ht ha h1
      obtain rfl := Except.ok.inj hx'
      obtain ⟨_, s2, hp, h3⟩ := alone_call h2
      obtain ⟨rfl, rfl⟩ := alone_done h3
      refine ⟨rfl, ?_⟩
      rw [hp, view_put ht1 ha1 _ hx1, hv]
      show MemStore.putServerAssocs _ url (Dict.set (s1.heap x).items a.handle a) = _
      rw [hh]; rfl
    obtain ⟨_, s1, h1, h2⟩ := alone_bind_ok h fun r s' h => ⟨(), (key h).1⟩
    obtain ⟨rfl, rfl⟩ := alone_pure h2
    exact ⟨(key h1).2, rfl⟩
  | getAssociation url hd =>
    have key : ∀ {r s'}, Alone clock (getAssociation url hd) s r s' →
        r = .ok (MemStore.getAssociation s.view url hd).2 ∧ s'.view = (MemStore.getAssociation s.view url hd).1 := by
      intro r s' h
      obtain ⟨x, s1, h1, h2⟩ := alone_bind_ok h (hgs url)
      obtain ⟨x', hx', ht1, ha1, hx1, hv, hh⟩ := alone_getServerAssocs ht ha h1
      obtain rfl := Except.ok.inj hx'
      cases hd with
      | none =>
        obtain ⟨i, s2, ⟨hi, rfl⟩, h3⟩ := alone_call h2
        obtain ⟨i1, i2⟩ := i
        simp only at hi h3
        subst hi
        obtain ⟨rfl, rfl⟩ := alone_bestLoop h3
        refine ⟨?_, hv⟩
        rw [List.drop_zero, hh]; rfl
      | some hd =>
        obtain ⟨o, s2, ⟨ho, rfl⟩, h3⟩ := alone_call h2
        obtain ⟨rfl, rfl⟩ := alone_done h3
        refine ⟨?_, hv⟩
        rw [ho, hh]; rfl
    obtain ⟨_, s1, h1, h2⟩ := alone_bind_ok h fun r s' h => ⟨_, (key h).1⟩
    obtain ⟨rfl, rfl⟩ := alone_pure h2
    obtain ⟨h3, h4⟩ := key h1
    obtain rfl := Except.ok.inj h3
    exact ⟨h4, rfl⟩
  | removeAssociation url hd =>
    have key : ∀ {r s'}, Alone clock (removeAssociation url hd) s r s' →
        r = .ok (MemStore.removeAssociation s.view url hd).2 ∧ s'.view = (MemStore.removeAssociation s.view url hd).1 := by
      intro r s' h
      obtain ⟨x, s1, h1, h2⟩ := alone_bind_ok h (hgs url)
      obtain ⟨x', hx', ht1, ha1, hx1, hv, hh⟩ := alone_getServerAssocs ht ha h1
      obtain rfl := Except.ok.inj hx'
      obtain ⟨b, s2, ⟨hb, hp⟩, h3⟩ := alone_call h2
      obtain ⟨rfl, rfl⟩ := alone_done h3
      rw [hb, hp, view_put ht1 ha1 _ hx1, hv]
      simp only [MemStore.removeAssociation, ServerAssocs.remove, Table.del]
      rw [hh]
      split
      · next hb' => rw [hb']; exact ⟨rfl, rfl⟩
      · next hb' =>
        rw [Bool.not_eq_true] at hb'
        rw [hb', hh]
        exact ⟨rfl, rfl⟩
    obtain ⟨_, s1, h1, h2⟩ := alone_bind_ok h fun r s' h => ⟨_, (key h).1⟩
    obtain ⟨rfl, rfl⟩ := alone_pure h2
    obtain ⟨h3, h4⟩ := key h1
    obtain rfl := Except.ok.inj h3
    exact ⟨h4, rfl⟩
  | useNonce url t salt =>
    have key : ∀ {r s'}, Alone clock (useNonce c url t salt) s r s' →
        r = .ok (MemStore.useNonce c clock s.view url t salt).2 ∧
          s'.view = (MemStore.useNonce c clock s.view url t salt).1 := by
      intro r s' h
      obtain ⟨now, s1, ⟨hn, rfl⟩, h1⟩ := alone_call h
      subst hn
      simp only [MemStore.useNonce]
      split at h1
      · next ho =>
        rw [if_pos ho]
        obtain ⟨rfl, rfl⟩ := alone_done h1
        exact ⟨rfl, rfl⟩
      · next ho =>
        rw [if_neg ho]
        obtain ⟨b, s2, ⟨hb, rfl⟩, h2⟩ := alone_call h1
        split at h2
        · next hb' =>
          rw [hb] at hb'
          rw [if_pos (show Dict.has s2.view.nonces (url, t, salt) = true from hb')]
          obtain ⟨rfl, rfl⟩ := alone_done h2
          exact ⟨rfl, rfl⟩
        · next hb' =>
          rw [hb] at hb'
          rw [if_neg (show ¬ Dict.has s2.view.nonces (url, t, salt) = true from hb')]
          obtain ⟨_, s3, hp, h3⟩ := alone_call h2
          obtain ⟨rfl, rfl⟩ := alone_done h3
          rw [hp]
          exact ⟨rfl, rfl⟩
    obtain ⟨_, s1, h1, h2⟩ := alone_bind_ok h fun r s' h => ⟨_, (key h).1⟩
    obtain ⟨rfl, rfl⟩ := alone_pure h2
    obtain ⟨h3, h4⟩ := key h1
    obtain rfl := Except.ok.inj h3
    exact ⟨h4, rfl⟩
  | cleanupNonces =>
    have key : ∀ {r s'}, Alone clock (cleanupNonces c) s r s' →
        r = .ok (MemStore.cleanupNonces c clock s.view).2 ∧ s'.view = (MemStore.cleanupNonces c clock s.view).1 := by
      intro r s' h
      obtain ⟨now, s1, ⟨hn, rfl⟩, h1⟩ := alone_call h
      obtain rfl : clock = now := hn.symm
      obtain ⟨i, s2, ⟨hi, rfl⟩, h2⟩ := alone_call h1
      obtain ⟨i1, i2⟩ := i
      simp only at hi h2
      subst hi
      obtain ⟨l, s3, h3, h4⟩ := alone_bind_ok h2 fun r s' h => ⟨_, (alone_staleLoop h).2⟩
      obtain ⟨rfl, hl⟩ := alone_staleLoop h3
      obtain rfl := Except.ok.inj hl
      simp only [List.drop_zero] at h4
      have hnd : ((Dict.keys s3.nonces.items).filter fun k => outside c clock k.2.1).Nodup :=
        List.Nodup.sublist List.filter_sublist ht.nonces
      have hin : ∀ k ∈ (Dict.keys s3.nonces.items).filter (fun k => outside c clock k.2.1),
          Dict.has s3.nonces.items k = true := fun k hk => (has_iff_keys _ _).2 (List.mem_filter.1 hk).1
      obtain ⟨_, s4, h5, h6⟩ := alone_bind_ok h4 fun r s' h => ⟨(), (alone_delNonces ht hnd hin h).1⟩
      obtain ⟨-, h7, h8, h9⟩ := alone_delNonces ht hnd hin h5
      obtain ⟨rfl, rfl⟩ := alone_pure h6
      refine ⟨rfl, ?_⟩
      simp only [State.view, h7, h8, h9]
      rfl
    obtain ⟨_, s1, h1, h2⟩ := alone_bind_ok h fun r s' h => ⟨_, (key h).1⟩
    obtain ⟨rfl, rfl⟩ := alone_pure h2
    obtain ⟨h3, h4⟩ := key h1
    obtain rfl := Except.ok.inj h3
    exact ⟨h4, rfl⟩
  | cleanupAssociations =>
    have key : ∀ {r s'}, Alone clock (cleanupAssociations c) s r s' →
        r = .ok (MemStore.cleanupAssociations c clock s.view).2 ∧
          s'.view = (MemStore.cleanupAssociations c clock s.view).1 := by
      intro r s' h
      obtain ⟨i, s2, ⟨hi, rfl⟩, h2⟩ := alone_call h
      obtain ⟨i1, i2⟩ := i
      simp only at hi h2
      subst hi
      have hnd := ha.nodup ht
      obtain ⟨l, s3, h3, h4⟩ := alone_bind_ok h2 fun r s' h =>
        ⟨_, (alone_serverLoop (pos := 0) ht (by rw [List.drop_zero]; exact hnd) h).2.2.2.2.2⟩
      obtain ⟨j1, j2, j3, j4, j5, j6⟩ := alone_serverLoop (pos := 0) ht (by rw [List.drop_zero]; exact hnd) h3
      obtain rfl := Except.ok.inj j6
      rw [List.drop_zero] at j5 h4
      rw [← j2] at h4
      have hk := keys_filter_nodup j3.servers fun p => (s3.heap p.2).items.length == 0
      obtain ⟨_, s4, h5, h6⟩ := alone_bind_ok h4 fun r s' h => ⟨(), (alone_delServers j3 hk.1 hk.2 h).1⟩
      obtain ⟨-, h7, h8, h9⟩ := alone_delServers j3 hk.1 hk.2 h5
      obtain ⟨rfl, rfl⟩ := alone_pure h6
      have hdict : s3.servers.items.map (fun p => (p.1, (s3.heap p.2).items)) =
          (cleanedServers (c.seconds clock) s2.view).map fun p => (p.1, p.2.1) := by
        simp only [cleanedServers, State.view, List.map_map, j2]
        exact List.map_congr_left fun p hp => by simp only [Function.comp_def]; rw [j5 p hp]
      refine ⟨?_, ?_⟩
      · simp only [MemStore.cleanupAssociations, cleanedServers, State.view, List.map_map, j2]
        rfl
      · simp only [MemStore.cleanupAssociations]
        rw [← hdict, State.view, h7, h8, j1, h9]
        congr 1
        refine (foldl_del_mapValues _ _ (fun y => (s3.heap y).items)).symm.trans ?_
        congr 1
        simp only [cleanedServers, State.view, List.filter_map, List.map_map, j2]
        have : s2.servers.items.filter (fun p => (s3.heap p.2).items.length == 0) =
            s2.servers.items.filter ((fun p => p.2.1.length == 0) ∘
              (fun p => (p.1, ServerAssocs.cleanup (c.seconds clock) p.2)) ∘
                fun p => (p.1, (s2.heap p.2).items)) :=
          List.filter_congr fun p hp => by simp only [Function.comp_def]; rw [j5 p hp]
        rw [this]
        rfl
    obtain ⟨_, s1, h1, h2⟩ := alone_bind_ok h fun r s' h => ⟨_, (key h).1⟩
    obtain ⟨rfl, rfl⟩ := alone_pure h2
    obtain ⟨h3, h4⟩ := key h1
    obtain rfl := Except.ok.inj h3
    exact ⟨h4, rfl⟩

end MemConc
