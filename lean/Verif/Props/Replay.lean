import Verif.Spec.Replay
import Verif.Props.Consumer
import Verif.Props.FileNonce
import Verif.Props.SqlStore
/-! # C38: no response is accepted twice -/

namespace Props
open Py Message Store Discover Consumer Spec

theorem mem_storeCalls {evs : List Ev} {op : Op} {o : Outcome} (h : .store op o ∈ evs) : (op, o) ∈ storeCalls evs := by
  rw [storeCalls, List.mem_filterMap]
  exact ⟨_, h, rfl⟩

theorem succeeded_verified {W : World} {C : Conf} {x : Completion} {e : Endpoint} (hx : x.Ran W C)
    (h : x.succeeded = some e) : ∃ m signed, Verified W C x.env x.session.token x.query x.current x.events e m signed := by
  obtain ⟨hq, hr⟩ := hx
  unfold Completion.succeeded at h
  split at h
  · next s' e' m l hres =>
    cases h
    rw [hres] at hr
    exact ⟨m, l, c37_success hq hr⟩
  · cases h

/-- C38: over any set of completions against one store in which no nonce is taken twice, at most one completion with a
    nonce of a given server, time and salt succeeds. -/
theorem c38_once {W : World} {C : Conf} (hC : C.hasStore = true) {runs : List Completion} (hr : ∀ x ∈ runs, x.Ran W C)
    {calls : List (Op × Outcome)} (hs : OnceEach calls) (ha : Among runs calls) (server : Str) (timestamp : Int)
    (salt : Str) : runs.countP (·.acceptedWith W server timestamp salt) ≤ 1 := by
  refine Nat.le_trans ?_ (Nat.le_trans (ha _) (hs server timestamp salt))
  clear ha hs
  induction runs with
  | nil => simp
  | cons x rest ih =>
    have ih := ih fun y hy => hr y (by simp [hy])
    rw [List.countP_cons, List.flatMap_cons, List.count_append]
    have : (if x.acceptedWith W server timestamp salt = true then 1 else 0) ≤
        (storeCalls x.events).count (.useNonce server timestamp salt, .ok (.bool true)) := by
      split
      · next hacc =>
        unfold Completion.acceptedWith at hacc
        split at hacc
        · next e he =>
          obtain ⟨m, l, hv⟩ := succeeded_verified (hr x (by simp)) he
          obtain ⟨n, t, s, h1, h2, h3⟩ := hv.nonce
          split at hacc
          · next n' server' hn =>
            rw [hn] at h1 h3
            simp only [Option.some.injEq] at h1
            subst h1
            simp at hacc
            obtain ⟨rfl, hacc⟩ := hacc
            rw [h2] at hacc
            simp at hacc
            obtain ⟨rfl, rfl⟩ := hacc
            exact List.count_pos_iff.2 (mem_storeCalls (h3 hC))
          · cases hacc
        · cases hacc
      · exact Nat.zero_le _
    omega

/-- C38: in particular the same response is accepted at most once, whatever the sessions and the URLs it arrives at. -/
theorem c38_replay {W : World} {C : Conf} (hC : C.hasStore = true) {runs : List Completion} (hr : ∀ x ∈ runs, x.Ran W C)
    {calls : List (Op × Outcome)} (hs : OnceEach calls) (ha : Among runs calls) (q : Dict Str Str) :
    runs.countP (fun x => decide (x.query = q) && x.succeeded.isSome) ≤ 1 := by
  by_cases hex : ∃ x ∈ runs, x.query = q ∧ x.succeeded.isSome
  · obtain ⟨x, hx, hq, hsx⟩ := hex
    obtain ⟨e, he⟩ := Option.isSome_iff_exists.1 hsx
    obtain ⟨m, l, hv⟩ := succeeded_verified (hr x hx) he
    obtain ⟨n, t, s, h1, h2, -⟩ := hv.nonce
    refine Nat.le_trans (List.countP_mono_left ?_) (c38_once hC hr hs ha (nonceIn x.query e.serverUrl).2 t s)
    intro y hy hacc
    simp at hacc
    obtain ⟨hyq, hys⟩ := hacc
    obtain ⟨e', he'⟩ := Option.isSome_iff_exists.1 hys
    obtain ⟨m', l', hv'⟩ := succeeded_verified (hr y hy) he'
    have key : nonceIn y.query e'.serverUrl = nonceIn x.query e.serverUrl := by
      have hd := hv.discovery
      have hd' := hv'.discovery
      rw [hyq, hq]
      rw [hq] at hd
      rw [hyq] at hd'
      unfold nonceIn
      unfold Confirmed at hd hd'
      split
      · rfl
      · next hn =>
        rw [if_neg hn] at hd hd'
        have server : ∀ {s evs} {e : Endpoint}, ((∃ claimed identity d, arg q t!"claimed_id" = some claimed ∧
            arg q t!"identity" = some identity ∧ arg q t!"op_endpoint" = some d.serverUrl ∧
            Discovered s evs claimed d ∧
            Agrees W [t!"http://specs.openid.net/auth/2.0/signon"] d claimed identity ∧
            e = { d with claimedId := some claimed }) ∨
          (∃ server, arg q t!"claimed_id" = none ∧ arg q t!"identity" = none ∧ arg q t!"op_endpoint" = some server ∧
            e = ⟨none, server, [t!"http://specs.openid.net/auth/2.0/server"], none, none, false, none⟩)) →
            arg q t!"op_endpoint" = some e.serverUrl := by
          rintro s evs e (⟨c, i, d, -, -, h, -, -, rfl⟩ | ⟨s, -, -, h, rfl⟩) <;> exact h
        have a := server hd
        rw [server hd'] at a
        simp at a
        rw [a]
    rw [Completion.acceptedWith, he']
    simp only [key]
    cases hn : nonceIn x.query e.serverUrl with
    | mk a b =>
      rw [hn] at h1
      simp only at h1
      subst h1
      simp [h2]
  · refine Nat.le_trans (Nat.le_of_eq (List.countP_eq_zero.2 ?_)) (Nat.zero_le 1)
    intro x hx h
    simp at h
    exact hex ⟨x, hx, h.1, by simpa using h.2⟩

/-! ## The three stores take no nonce twice -/

theorem count_le_one_of_split {α : Type} [BEq α] [LawfulBEq α] {l : List α} {x : α}
    (h : ∀ a b d, l ≠ a ++ x :: (b ++ x :: d)) : l.count x ≤ 1 := by
  induction l with
  | nil => simp
  | cons y l ih =>
    have ih := ih fun a b d e => h (y :: a) b d (by rw [e]; rfl)
    rw [List.count_cons]
    split
    · next hyx =>
      simp at hyx
      subst hyx
      have : l.count y = 0 := by
        rw [List.count_eq_zero]
        intro hm
        obtain ⟨b, d, rfl⟩ := List.append_of_mem hm
        exact h [] b d rfl
      omega
    · omega

/-- what an observer of the memory store sees -/
def memoryCalls (c : Clock) (hist : List Event) : List (Op × Outcome) :=
  (hist.zip (answers (MemStore.step c) MemStore.init hist)).map fun p => (p.1.2, .ok p.2)

theorem length_answers {σ : Type} (step : σ → Event → σ × Answer) (s : σ) (h : List Event) :
    (answers step s h).length = h.length := by
  induction h generalizing s with
  | nil => rfl
  | cons e r ih => simp [answers, ih]

/-- C38: the memory store, with a clock that does not run backwards. -/
theorem c38_memory_store (c : Clock) (hist : List Event) (hm : Monotone hist) : OnceEach (memoryCalls c hist) := by
  intro u t s
  apply count_le_one_of_split
  intro a b d h
  have get : ∀ (i : Nat) (x : Op × Outcome), (memoryCalls c hist)[i]? = some x → ∃ now, hist[i]? = some (now, x.1) ∧
      ∃ r, (answers (MemStore.step c) MemStore.init hist)[i]? = some r ∧ x.2 = .ok r := by
    intro i x hx
    rw [memoryCalls, List.getElem?_map, Option.map_eq_some_iff] at hx
    obtain ⟨⟨⟨now, op⟩, r⟩, hx, rfl⟩ := hx
    rw [List.getElem?_zip_eq_some] at hx
    exact ⟨now, hx.1, r, hx.2, rfl⟩
  have h1 := get a.length (.useNonce u t s, .ok (.bool true)) (by rw [h]; simp)
  have h2 := get (a.length + 1 + b.length) (.useNonce u t s, .ok (.bool true)) (by
    rw [h, List.getElem?_append_right (by omega)]
    rw [show a.length + 1 + b.length - a.length = b.length + 1 by omega, List.getElem?_cons_succ]
    simp)
  obtain ⟨n1, g1, r1, k1, e1⟩ := h1
  obtain ⟨n2, g2, r2, k2, e2⟩ := h2
  simp only [Except.ok.injEq] at e1 e2
  subst e1 e2
  simp only at g1 g2
  have hl1 : a.length < hist.length := by
    rw [List.getElem?_eq_some_iff] at g1; exact g1.1
  have sp1 : hist = hist.take a.length ++ (n1, .useNonce u t s) :: hist.drop (a.length + 1) := by
    rw [List.getElem?_eq_some_iff] at g1
    obtain ⟨hl, g1⟩ := g1
    rw [← g1, List.getElem_cons_drop, List.take_append_drop]
  have g2' : (hist.drop (a.length + 1))[b.length]? = some (n2, .useNonce u t s) := by
    rw [List.getElem?_drop]; exact g2
  have sp2 : hist.drop (a.length + 1) = (hist.drop (a.length + 1)).take b.length ++
      (n2, .useNonce u t s) :: (hist.drop (a.length + 1)).drop (b.length + 1) := by
    rw [List.getElem?_eq_some_iff] at g2'
    obtain ⟨hl, g2'⟩ := g2'
    rw [← g2', List.getElem_cons_drop, List.take_append_drop]
  have la : (hist.take a.length).length = a.length := by simp; omega
  have lb : ((hist.drop (a.length + 1)).take b.length).length = b.length := by
    rw [List.getElem?_eq_some_iff] at g2'
    obtain ⟨hl, -⟩ := g2'
    simp at hl ⊢; omega
  generalize hist.take a.length = A at sp1 la
  generalize (hist.drop (a.length + 1)).take b.length = B at sp2 lb
  generalize (hist.drop (a.length + 1)).drop (b.length + 1) = D at sp2
  rw [sp2] at sp1
  have := c17_once c A B D n1 n2 u t s (by rw [← sp1]; exact hm) (by rw [← sp1, la]; exact k1)
  rw [← sp1, la, lb] at this
  exact this k2

/-- C38: an SQL store, with any clients, failures of the database, and a clock that does not run backwards. -/
theorem c38_sql_store (D : SqlStore.Driver) (c : Clock) (calls : List SqlStore.Call) (hm : CallsMonotone calls) :
    OnceEach ((SqlStore.run D c SqlStore.Db.empty calls).1.map fun p => (p.1.2, p.2)) := by
  intro u t s
  induction calls using SqlStore.snoc_ind with
  | nil => simp [SqlStore.run]
  | snoc l e ih =>
    have hl : CallsMonotone l := by
      unfold CallsMonotone at *
      exact (List.pairwise_append.1 hm).1
    have ih := ih hl
    rw [SqlStore.run_snoc, List.map_append, List.count_append]
    simp only [List.map_cons, List.map_nil, List.count_singleton]
    split
    · next he =>
      simp at he
      have := (c19_once D c l e u t s he.1 hm he.2).2
      have : (List.map (fun p => (p.1.2, p.2)) (SqlStore.run D c SqlStore.Db.empty l).1).count
          (Op.useNonce u t s, (Except.ok (Answer.bool true) : Outcome)) = 0 := by
        rw [List.count_eq_zero]
        intro hmem
        rw [List.mem_map] at hmem
        obtain ⟨⟨⟨now, op⟩, o⟩, h1, h2⟩ := hmem
        simp at h2
        obtain ⟨rfl, rfl⟩ := h2
        exact this ⟨now, h1⟩
      omega
    · omega

/-- C38: the file store, under any interleaving of processes, crashes and failing system calls in which the clock
    does not move out of a nonce's window while a call with that nonce is going on (see C18). -/
theorem c38_file_store (W : FileStore.World) (E : Files.Env) (cfg : Files.Config Op Answer)
    (h : FileStore.Prompt W E (fun _ => True) cfg) : OnceEach cfg.finished := by
  intro u t s
  exact c18_once W E cfg u t s (h.mono fun _ _ => trivial)

/-! the same response twice, with a memory store -/

def cenv1 : Consumer.Env := ⟨1116177120000, t!"abcdef", 5, 6⟩
def cassoc1 : Association.Assoc := ⟨t!"h", [1, 2, 3], 1116177100, 100, t!"HMAC-SHA1"⟩

/-- what a completion does, and what the store answers about the nonce -/
def cevs2 (fresh : Bool) : List Ev :=
  [.store (.getAssociation t!"http://op.example/" (some t!"h")) (.ok (.assoc (some cassoc1))),
   .store (.useNonce t!"http://op.example/" 1116177111 t!"aa") (.ok (.bool fresh))]

def completion0 (fresh : Bool) : Completion where
  env := cenv1
  session := ⟨some endpoint0, none⟩
  query := cquery0 t!"AQIf"
  current := t!"http://rp.example/back"
  events := cevs2 fresh
  result := (play (complete cworld0 cconf0 cenv1 ⟨some endpoint0, none⟩ (cquery0 t!"AQIf") t!"http://rp.example/back")
    (cevs2 fresh)).getD (.error (.py .typeError))

theorem completion0_ran (fresh : Bool) : (completion0 fresh).Ran cworld0 cconf0 := by
  refine ⟨by show Dict.WF (cquery0 t!"AQIf"); decide, play_runs ?_⟩
  have h : (play (complete cworld0 cconf0 cenv1 ⟨some endpoint0, none⟩ (cquery0 t!"AQIf") t!"http://rp.example/back")
    (cevs2 fresh)).isSome := by cases fresh <;> decide +kernel
  simp only [completion0]
  generalize play (complete cworld0 cconf0 cenv1 ⟨some endpoint0, none⟩ (cquery0 t!"AQIf") t!"http://rp.example/back")
    (cevs2 fresh) = x at h
  cases x with
  | none => cases h
  | some r => rfl

def history1 : List Event :=
  [(1116177110000, .storeAssociation t!"http://op.example/" cassoc1),
   (1116177120000, .getAssociation t!"http://op.example/" (some t!"h")),
   (1116177120000, .getAssociation t!"http://op.example/" (some t!"h")),
   (1116177120001, .useNonce t!"http://op.example/" 1116177111 t!"aa"),
   (1116177120001, .cleanupNonces),
   (1116177120002, .useNonce t!"http://op.example/" 1116177111 t!"aa")]

example : Monotone history1 ∧
    (completion0 true).acceptedWith cworld0 t!"http://op.example/" 1116177111 t!"aa" = true ∧
    (completion0 false).succeeded.isSome = false ∧
    ∀ x ∈ [completion0 true, completion0 false].flatMap fun r => storeCalls r.events,
      ([completion0 true, completion0 false].flatMap fun r => storeCalls r.events).count x ≤
        (memoryCalls clock0 history1).count x := by decide +kernel

/-- Without a store nothing is remembered: the same response succeeds as often as the provider confirms it. -/
theorem c38_no_store :
    succeeded0 (play (complete cworld0 { cconf0 with hasStore := false } cenv0 ⟨some endpoint0, none⟩ (cquery0 t!"zz")
      t!"http://rp.example/back") (cevs1.drop 2 |>.take 1)) = some (some t!"http://u.example/#f") := by decide +kernel

end Props
