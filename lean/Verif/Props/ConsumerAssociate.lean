import Verif.Lemmas.ConsumerAssociate
import Verif.Props.Consumer
import Verif.Props.Cryptutil
/-! # C40: the associations a consumer asks for and keeps -/

namespace Props
open Py Message Association Cryptutil Store Discover Consumer Spec DH

/-- one request: nothing was sent, or one request was and an association comes from its reply -/
theorem runs_requestAssociation {W : World} {E : Consumer.Env} {priv : Nat} {e : Endpoint} {a t : Str} {evs : List Ev}
    {r : Except Err (Option Assoc)} (h : Runs (requestAssociation W E priv e a t) evs r) :
    (evs = [] ∧ ∃ x, r = .error (.py x)) ∨
    ∃ body o, evs = [.post e.serverUrl body o] ∧ AsksFor W e body a t ∧ ∀ x, r = .ok (some x) → Granted W E t body o x := by
  rw [requestAssociation, runs_py_bind] at h
  rcases h with ⟨⟨s, m⟩, h1, h2⟩ | ⟨x, -, rfl, rfl⟩
  · right
    obtain ⟨hs, hask, hkey⟩ := createRequest_ok h1
    simp only at h2
    rw [runs_handle] at h2
    obtain ⟨e1, e2, o, rfl, h3, h4⟩ := h2
    obtain ⟨o', rfl, h5⟩ := runs_makeKVPost.1 h3
    have he2 : e2 = [] := by
      split at h4 <;> exact h4.1
    subst he2
    refine ⟨_, o', rfl, hask, fun x hx => ?_⟩
    subst hx
    rcases h5 with ⟨http, rfl, h5⟩ | ⟨er, rfl, rfl⟩
    · subst h5
      cases hr : httpResponseToMessage W http with
      | error x => rw [hr] at h4; split at h4 <;> simp_all
      | ok response =>
        rw [hr] at h4
        simp only at h4
        obtain ⟨hst, text, d, g1, g2, hd, g3⟩ := http_ok hr
        have hx : extractAssociation W (E.seconds W) response s = .ok x := by
          have h6 := h4.2
          unfold noAssociation at h6
          split at h6
          · next hq => rw [hq]; simpa using h6
          · split at h6 <;> simp at h6
        obtain ⟨exp, s', k1, k2, k3, k4, k5, k6, k7, k8⟩ := extract_ok hd g3 hx
        refine ⟨http, text, d, exp, s'.sessionType, rfl, hst, g1, g2, k1, k2, k3, k4, k5, ?_, k7, ?_, ?_⟩
        · rcases k6 with ⟨rfl, k6⟩ | ⟨rfl, k6⟩
          · exact .inl ⟨hs, k6⟩
          · exact .inr ⟨rfl, k6⟩
        · intro hp
          have : s' = .plain := by rcases s' with _ | ⟨_ | _, _⟩ <;> simp [Session.sessionType] at hp ⊢
          subst this
          simp only [Session.extractSecret] at k8
          obtain ⟨key, l1, l2⟩ := bind_eq_ok.1 k8
          rw [getArgReq_ok, (fromOpenIDArgs_has hd g3).2 _ (by decide) (by decide)] at l1
          exact ⟨key, by simpa using l1, l2⟩
        · intro hp
          have hss : s' = s := by
            rcases k6 with ⟨rfl, -⟩ | ⟨rfl, -⟩
            · rfl
            · exact absurd rfl hp
          subst hss
          cases s' with
          | plain => exact absurd rfl hp
          | dh b dh =>
            simp only [Session.extractSecret] at k8
            obtain ⟨pub, l1, k8⟩ := bind_eq_ok.1 k8
            obtain ⟨enc, l2, k8⟩ := bind_eq_ok.1 k8
            obtain ⟨_, -, k8⟩ := bind_eq_ok.1 k8
            obtain ⟨_, -, k8⟩ := bind_eq_ok.1 k8
            obtain ⟨y, l3, k8⟩ := bind_eq_ok.1 k8
            rw [getArgReq_ok, (fromOpenIDArgs_has hd g3).2 _ (by decide) (by decide)] at l1 l2
            refine ⟨dh, pub, enc, hkey b dh rfl, by simpa using l1, by simpa using l2, ?_⟩
            have hh : W.hash b = if (Session.dh b dh).sessionType = t!"DH-SHA256" then W.sha256 else W.sha1 := by
              cases b <;> rfl
            rw [← hh, l3]
            rw [DiffieHellman.xorSecret] at l3
            obtain ⟨_, -, l3⟩ := bind_eq_ok.1 l3
            obtain ⟨_, -, l3⟩ := bind_eq_ok.1 l3
            obtain ⟨_, -, l3⟩ := bind_eq_ok.1 l3
            obtain ⟨z, -, l3⟩ := bind_eq_ok.1 l3
            simp at l3
            subst l3
            have := c04_base64 z
            rw [fromBase64] at this
            rw [k8] at this
            simp at this
            rw [this]
    · split at h4 <;> simp_all
  · exact .inl ⟨rfl, x, rfl⟩

/-- the requests of a negotiation, before anything is stored -/
theorem runs_negotiate {W : World} {C : Conf} {E : Consumer.Env} {e : Endpoint} {evs : List Ev}
    {r : Except Err (Option Assoc)} (h : Runs (negotiateAssociation W C E e) evs r) :
    evs.length ≤ 2 ∧ (∀ ev ∈ evs, ∃ body o, ∃ p ∈ C.negotiator, ev = .post e.serverUrl body o ∧ AsksFor W e body p.1 p.2) ∧
    ∀ x, r = .ok (some x) → ∃ body o, ∃ p ∈ C.negotiator, .post e.serverUrl body o ∈ evs ∧ AsksFor W e body p.1 p.2 ∧
      Granted W E p.2 body o x := by
  unfold negotiateAssociation at h
  cases hn : C.negotiator.getAllowedType with
  | none => rw [hn] at h; obtain ⟨rfl, rfl⟩ := h; simp
  | some p =>
    obtain ⟨a, t⟩ := p
    have hp : (a, t) ∈ C.negotiator := by
      rw [Negotiator.getAllowedType] at hn
      exact List.mem_of_mem_head? hn
    rw [hn] at h
    simp only at h
    rw [runs_handle] at h
    obtain ⟨e1, e2, o, rfl, h1, h2⟩ := h
    have h1 := runs_requestAssociation h1
    by_cases hsv : ∃ code m, o = .error (.server code m)
    · obtain ⟨code, m, rfl⟩ := hsv
      rcases h1 with ⟨-, x, hx⟩ | ⟨body, o, rfl, hask, -⟩
      · cases hx
      · simp only at h2
        rw [runs_py_bind] at h2
        rcases h2 with ⟨sup, g1, g2⟩ | ⟨x, -, rfl, rfl⟩
        · cases sup with
          | none =>
            obtain ⟨rfl, rfl⟩ := g2
            refine ⟨by simp, ?_, by simp⟩
            intro ev hev; simp at hev; subst hev; exact ⟨_, _, (a, t), hp, rfl, hask⟩
          | some q =>
            obtain ⟨a', t'⟩ := q
            have hq : (a', t') ∈ C.negotiator := by
              unfold extractSupportedAssociationType at g1
              split at g1
              · simp at g1
              · obtain ⟨x, -, g1⟩ := bind_eq_ok.1 g1
                obtain ⟨y, -, g1⟩ := bind_eq_ok.1 g1
                split at g1
                · split at g1
                  · next hal =>
                    simp at g1
                    obtain ⟨rfl, rfl⟩ := g1
                    unfold Negotiator.isAllowed at hal
                    simp at hal
                    exact hal.1
                  · simp at g1
                · simp at g1
            simp only [retryAssociation] at g2
            rw [runs_handle] at g2
            obtain ⟨e3, e4, o2, rfl, k1, k2⟩ := g2
            have k1 := runs_requestAssociation k1
            have he4 : e4 = [] := by split at k2 <;> exact k2.1
            subst he4
            have hr : ∀ x, r = .ok (some x) → o2 = .ok (some x) := by
              intro x hx
              subst hx
              split at k2
              · simp at k2
              · simpa using k2.2
            rcases k1 with ⟨rfl, x, rfl⟩ | ⟨body2, o', rfl, hask2, hgr⟩
            · refine ⟨by simp, ?_, fun x hx => by cases hr x hx⟩
              intro ev hev; simp at hev; subst hev; exact ⟨_, _, (a, t), hp, rfl, hask⟩
            · refine ⟨by simp, ?_, fun x hx => ⟨body2, o', (a', t'), hq, by simp, hask2, hgr x (hr x hx)⟩⟩
              intro ev hev
              simp at hev
              rcases hev with rfl | rfl
              · exact ⟨_, _, (a, t), hp, rfl, hask⟩
              · exact ⟨_, _, (a', t'), hq, rfl, hask2⟩
        · refine ⟨by simp, ?_, by simp⟩
          intro ev hev; simp at hev; subst hev; exact ⟨_, _, (a, t), hp, rfl, hask⟩
    · have hh : e2 = [] ∧ o = r := by
        split at h2
        · exact absurd ⟨_, _, rfl⟩ hsv
        · exact h2
      obtain ⟨rfl, rfl⟩ := hh
      rcases h1 with ⟨rfl, x, rfl⟩ | ⟨body, o', rfl, hask, hgr⟩
      · simp
      · refine ⟨by simp, ?_, fun x hx => ⟨body, o', (a, t), hp, by simp, hask, hgr x hx⟩⟩
        intro ev hev; simp at hev; subst hev; exact ⟨_, _, (a, t), hp, rfl, hask⟩

theorem negotiated_of {W : World} {C : Conf} {E : Consumer.Env} {e : Endpoint} {pre posts post : List Ev}
    (hpre : ∀ ev ∈ pre, isPost ev = false ∧ isStored ev = false) (hl : posts.length ≤ 2)
    (hposts : ∀ ev ∈ posts, ∃ body o, ∃ p ∈ C.negotiator, ev = .post e.serverUrl body o ∧ AsksFor W e body p.1 p.2)
    (hpost : post = [] ∨ ∃ a x, post = [.store (.storeAssociation e.serverUrl a) x] ∧
      ∃ body o, ∃ p ∈ C.negotiator, .post e.serverUrl body o ∈ posts ∧ AsksFor W e body p.1 p.2 ∧ Granted W E p.2 body o a) :
    Negotiated W C E e (pre ++ posts ++ post) := by
  have f1 : pre.filter isPost = [] := by simp; exact fun ev h => (hpre ev h).1
  have f2 : pre.filter isStored = [] := by simp; exact fun ev h => (hpre ev h).2
  have f3 : posts.filter isStored = [] := by
    simp; intro ev h; obtain ⟨b, o, p, -, rfl, -⟩ := hposts ev h; rfl
  have f4 : (posts.filter isPost).length ≤ 2 := Nat.le_trans (List.length_filter_le _ _) hl
  have f5 : post.filter isPost = [] := by rcases hpost with rfl | ⟨a, x, rfl, -⟩ <;> rfl
  have f6 : (post.filter isStored).length ≤ 1 := by
    rcases hpost with rfl | ⟨a, x, rfl, -⟩
    · exact Nat.zero_le 1
    · exact Nat.le_refl 1
  constructor
  · simp [f1, f5, f4]
  · intro u b o h
    simp only [List.mem_append] at h
    rcases h with (h | h) | h
    · have := (hpre _ h).1; simp [isPost] at this
    · obtain ⟨b', o', p, hp, he, hask⟩ := hposts _ h
      cases he; exact ⟨rfl, p, hp, hask⟩
    · rcases hpost with rfl | ⟨a, x, rfl, -⟩ <;> simp at h
  · simp [f2, f3, f6]
  · intro u a x h
    simp only [List.mem_append] at h
    rcases h with (h | h) | h
    · have := (hpre _ h).2; simp [isStored] at this
    · obtain ⟨b', o', p, hp, he, hask⟩ := hposts _ h; cases he
    · rcases hpost with rfl | ⟨a', x', rfl, body, o, p, hp, hin, hask, hgr⟩
      · simp at h
      · simp at h
        obtain ⟨⟨rfl, rfl⟩, rfl⟩ := h
        exact ⟨rfl, body, o, p, hp, by simp [hin], hask, hgr⟩

theorem runs_fetchAssoc {url : Str} {hd : Option Str} {evs : List Ev} {r : Except Err (Option Assoc)}
    (h : Runs (fetchAssoc url hd) evs r) : ∃ o, evs = [.store (.getAssociation url hd) o] := by
  simp only [fetchAssoc, Consumer.Runs] at h
  obtain ⟨o, rest, rfl, h⟩ := h
  refine ⟨o, ?_⟩
  split at h <;> (obtain ⟨rfl, -⟩ := h; rfl)

theorem runs_putAssoc {url : Str} {a : Assoc} {evs : List Ev} {r : Except Err Unit}
    (h : Runs (putAssoc url a) evs r) : ∃ o, evs = [.store (.storeAssociation url a) o] := by
  simp only [putAssoc, Consumer.Runs] at h
  obtain ⟨o, rest, rfl, h⟩ := h
  refine ⟨o, ?_⟩
  split at h <;> (obtain ⟨rfl, -⟩ := h; rfl)

theorem runs_getAssociation {W : World} {C : Conf} {E : Consumer.Env} {e : Endpoint} {evs : List Ev}
    {r : Except Err (Option Assoc)} (h : Runs (getAssociation W C E e) evs r) : Negotiated W C E e evs := by
  rw [Consumer.getAssociation, runs_bind] at h
  rcases h with ⟨e1, e2, a, rfl, h1, h2⟩ | ⟨x, rfl, h1⟩
  · obtain ⟨o, rfl⟩ := runs_fetchAssoc h1
    split at h2
    · obtain ⟨rfl, -⟩ := h2
      exact negotiated_of (pre := [_]) (posts := []) (post := []) (by simp [isPost, isStored]) (by simp) (by simp) (.inl rfl)
    · rw [negotiateAndStore, runs_bind] at h2
      rcases h2 with ⟨e3, e4, a', rfl, h3, h4⟩ | ⟨x, rfl, h3⟩
      · obtain ⟨g1, g2, g3⟩ := runs_negotiate h3
        cases a' with
        | none =>
          obtain ⟨rfl, -⟩ := h4
          rw [← List.append_assoc]
          exact negotiated_of (pre := [_]) (post := []) (by simp [isPost, isStored]) g1 g2 (.inl rfl)
        | some x =>
          simp only at h4
          rw [← List.append_assoc]
          rw [runs_bind] at h4
          have : ∃ o, e4 = [.store (.storeAssociation e.serverUrl x) o] := by
            rcases h4 with ⟨e5, e6, _, rfl, h5, rfl, -⟩ | ⟨y, -, h5⟩
            · obtain ⟨o, rfl⟩ := runs_putAssoc h5; exact ⟨o, rfl⟩
            · exact runs_putAssoc h5
          obtain ⟨o', rfl⟩ := this
          exact negotiated_of (pre := [_]) (by simp [isPost, isStored]) g1 g2 (.inr ⟨x, o', rfl, g3 x rfl⟩)
      · obtain ⟨g1, g2, -⟩ := runs_negotiate h3
        have := negotiated_of (pre := [.store (.getAssociation e.serverUrl none) o]) (post := []) (W := W) (E := E)
          (by simp [isPost, isStored]) g1 g2 (.inl rfl)
        simpa using this
  · obtain ⟨o, rfl⟩ := runs_fetchAssoc h1
    exact negotiated_of (pre := [_]) (posts := []) (post := []) (by simp [isPost, isStored]) (by simp) (by simp) (.inl rfl)

theorem negotiated_nil {W : World} {C : Conf} {E : Consumer.Env} {e : Endpoint} : Negotiated W C E e [] :=
  ⟨by simp, by simp, by simp, by simp⟩

theorem runs_genericBegin {W : World} {C : Conf} {E : Consumer.Env} {e : Endpoint} {evs : List Ev}
    {r : Except Err AuthRequest} (h : Runs (genericBegin W C E e) evs r) : Negotiated W C E e evs := by
  rw [genericBegin, runs_bind] at h
  have ha : ∀ {evs r}, Runs (associationFor W C E e) evs r → Negotiated W C E e evs := by
    intro evs r h
    unfold associationFor at h
    split at h
    · exact runs_getAssociation h
    · obtain ⟨rfl, -⟩ := h; exact negotiated_nil
  rcases h with ⟨e1, e2, a, rfl, h1, h2⟩ | ⟨x, rfl, h1⟩
  · have : e2 = [] := by
      rw [runs_py_bind] at h2
      rcases h2 with ⟨_, -, rfl, -⟩ | ⟨_, -, -, rfl⟩ <;> rfl
    subst this
    rw [List.append_nil]; exact ha h1
  · exact ha h1

/-- C40: whatever the provider replies, starting a request makes at most two association requests, each to the provider and
    for a pair of types the negotiator allows; at most one association is stored, one that a reply grants. -/
theorem c40_beginWithoutDiscovery {W : World} {C : Conf} {E : Consumer.Env} {s : UserSession} {e : Endpoint}
    {anonymous : Bool} {evs : List Ev} {r : Except Err (UserSession × Except Err AuthRequest)}
    (h : Runs (beginWithoutDiscovery W C E s e anonymous) evs r) : Negotiated W C E e evs := by
  rw [beginWithoutDiscovery, runs_handle] at h
  obtain ⟨e1, e2, o, rfl, h1, h2⟩ := h
  have : e2 = [] := by split at h2 <;> exact h2.1
  subst this
  rw [List.append_nil]; exact runs_genericBegin h1

/-- C40, with discovery before it: the endpoint is the one discovery (or the session) gave. -/
theorem c40_begin {W : World} {C : Conf} {E : Consumer.Env} {s : UserSession} {url : Str} {anonymous : Bool}
    {evs : List Ev} {r : Except Err (UserSession × Except Err AuthRequest)}
    (h : Runs (begin W C E s url anonymous) evs r) : ∃ e, Negotiated W C E e evs := by
  have hd : ∀ {evs r}, Runs (getNextService s url) evs r → ∀ ev ∈ evs, isPost ev = false ∧ isStored ev = false := by
    intro evs r h
    unfold getNextService at h
    split at h
    · obtain ⟨rfl, -⟩ := h; simp
    · rw [runs_handle] at h
      obtain ⟨e1, e2, o, rfl, h1, h2⟩ := h
      obtain ⟨o', rfl, -⟩ := runs_discover.1 h1
      have : e2 = [] := by
        split at h2
        · exact h2.1
        · split at h2 <;> exact h2.1
      subst this
      simp [isPost, isStored]
  rw [begin, runs_bind] at h
  rcases h with ⟨e1, e2, ⟨s', o⟩, rfl, h1, h2⟩ | ⟨x, rfl, h1⟩
  · have h1 := hd h1
    have hadd : ∀ e, Negotiated W C E e e2 → Negotiated W C E e (e1 ++ e2) := by
      intro e hn
      have f1 : e1.filter isPost = [] := by simp; exact fun ev h => (h1 ev h).1
      have f2 : e1.filter isStored = [] := by simp; exact fun ev h => (h1 ev h).2
      constructor
      · simpa [f1] using hn.posts
      · intro u b o h
        rw [List.mem_append] at h
        rcases h with h | h
        · have := (h1 _ h).1; simp [isPost] at this
        · exact hn.asked u b o h
      · simpa [f2] using hn.stores
      · intro u a x h
        rw [List.mem_append] at h
        rcases h with h | h
        · have := (h1 _ h).2; simp [isStored] at this
        · obtain ⟨g1, b, o, p, g2, g3, g4⟩ := hn.stored u a x h
          exact ⟨g1, b, o, p, g2, by simp [g3], g4⟩
    unfold beginWith at h2
    split at h2
    · obtain ⟨rfl, -⟩ := h2; exact ⟨⟨none, [], [], none, none, false, none⟩, hadd _ negotiated_nil⟩
    · obtain ⟨rfl, -⟩ := h2; exact ⟨⟨none, [], [], none, none, false, none⟩, hadd _ negotiated_nil⟩
    · next e => exact ⟨_, hadd _ (c40_beginWithoutDiscovery h2)⟩
  · exact ⟨⟨none, [], [], none, none, false, none⟩, negotiated_of (pre := evs) (posts := []) (post := []) (hd h1) (by simp) (by simp) (.inl rfl) |>
      (by simpa using ·)⟩

/-- C40: completing a request stores no association. -/
theorem c40_complete {W : World} {C : Conf} {E : Consumer.Env} {s : UserSession} {q : Dict Str Str} {current : Str}
    {evs : List Ev} {r : Except Err (UserSession × Except Err Consumer.Response)}
    (h : Consumer.Runs (complete W C E s q current) evs r) : ∀ ev ∈ evs, isStored ev = false := by
  let P : Ev → Prop := fun ev => isStored ev = false
  have hd : ∀ ms id, Only P (discoverAndVerify W ms id) := by
    intro ms id
    unfold discoverAndVerify
    split
    · exact only_raise _
    · exact only_bind (only_discover (fun _ => rfl) fun _ => only_ofPy _) fun _ => only_ofPy _
  have hv : ∀ m e, Only P (verifyDiscoveryResults W m e) := by
    intro m e
    unfold verifyDiscoveryResults
    split
    · refine only_bind (only_ofPy _) fun c => only_bind (only_ofPy _) fun i => only_bind (only_ofPy _) fun u => ?_
      split
      · exact only_raise _
      · exact only_raise _
      · exact only_pure _
      · refine only_bind ?_ fun _ => only_pure _
        unfold endpointFor2
        split
        · exact hd _ _
        · split
          · exact only_pure _
          · split
            · exact hd _ _
            · exact only_raise _
    · refine only_bind (only_ofPy _) fun c => only_bind (only_ofPy _) fun i => only_bind (only_ofPy _) fun u => ?_
      split
      · exact only_raise _
      · unfold endpointFor1
        split
        · exact hd _ _
        · split
          · exact only_pure _
          · split
            · exact hd _ _
            · exact only_raise _
  have hc : ∀ m u, Only P (checkAuth W C m u) := by
    intro m u
    refine only_bind (only_ofPy _) fun r => ?_
    unfold postCheckAuth
    split
    · exact only_pure _
    · refine only_handle (only_post (fun _ => rfl) fun o => ?_) fun o => ?_
      · split
        · exact only_done _
        · exact only_raise _
      · split
        · refine only_bind (only_ofPy _) fun v => only_bind (only_ofPy _) fun i => only_bind ?_ fun _ => only_pure _
          unfold invalidate
          split
          · exact only_pure _
          · split
            · refine only_store (fun _ => rfl) fun o => ?_
              split
              · exact only_pure _
              · exact only_raise _
            · exact only_pure _
        · exact only_pure _
        · exact only_pure _
        · exact only_raise _
  have hs : ∀ m u, Only P (idResCheckSignature W C E m u) := by
    intro m u
    refine only_bind (only_ofPy _) fun hd => only_bind ?_ fun a => ?_
    · unfold storedAssoc
      split
      · refine only_store (fun _ => rfl) fun o => ?_
        split
        · exact only_pure _
        · exact only_raise _
        · exact only_raise _
      · exact only_pure _
    · split
      · split
        · exact only_raise _
        · refine only_bind (only_ofPy _) fun b => ?_
          split
          · exact only_pure _
          · exact only_raise _
      · refine only_bind (hc _ _) fun b => ?_
        split
        · exact only_pure _
        · exact only_raise _
  have hn : ∀ m e, Only P (idResCheckNonce W C m e) := by
    intro m e
    refine only_bind (only_ofPy _) fun p => ?_
    obtain ⟨n, u⟩ := p
    cases n with
    | none => exact only_raise _
    | some n =>
      refine only_bind (only_ofPy _) fun p => ?_
      obtain ⟨t, sl⟩ := p
      refine only_bind ?_ fun b => ?_
      · unfold nonceFresh
        split
        · refine only_store (fun _ => rfl) fun o => ?_
          split
          · exact only_pure _
          · exact only_raise _
          · exact only_raise _
        · exact only_pure _
      · split
        · exact only_pure _
        · exact only_raise _
  have hdo : ∀ m e, Only P (doIdRes W C E m e current) := by
    intro m e
    exact only_bind (only_ofPy _) fun _ => only_bind (only_ofPy _) fun _ => only_bind (hv _ _) fun _ =>
      only_bind (hs _ _) fun _ => only_bind (hn _ _) fun _ => only_bind (only_ofPy _) fun _ => only_pure _
  have hg : ∀ m e, Only P (genericComplete W C E m e current) := by
    intro m e
    refine only_bind (only_ofPy _) fun mode => ?_
    split
    · exact only_pure _
    · split
      · exact only_ofPy _
      · split
        · exact only_ofPy _
        · split
          · refine only_bind (only_ofPy _) fun u => ?_
            split
            · exact only_pure _
            · exact only_handle (hdo _ _) fun _ => only_done _
          · exact only_pure _
  have : Only P (complete W C E s q current) := by
    unfold complete
    split
    · exact only_pure _
    · refine only_handle (hg _ _) fun o => ?_
      split <;> exact only_pure _
  exact this evs r h

/-! a provider that does not do the first pair and proposes the second -/

def plainConf0 : Conf := ⟨true, [(t!"HMAC-SHA256", t!"no-encryption"), (t!"HMAC-SHA1", t!"no-encryption")]⟩

def assocBody0 (t : Str) : Str :=
  t!"openid.assoc_type=" ++ t ++ t!"&openid.mode=associate&openid.ns=http%3A%2F%2Fspecs.openid.net%2Fauth%2F2.0&openid.session_type=no-encryption"

def negotiation0 : List Ev :=
  [.store (.getAssociation t!"http://op.example/" none) (.ok (.assoc none)),
   .post t!"http://op.example/" (assocBody0 t!"HMAC-SHA256")
     (.ok ⟨400, Utf8.encode t!"ns:http://specs.openid.net/auth/2.0\nerror:no\nerror_code:unsupported-type\nassoc_type:HMAC-SHA1\nsession_type:no-encryption\n"⟩),
   .post t!"http://op.example/" (assocBody0 t!"HMAC-SHA1")
     (.ok ⟨200, Utf8.encode t!"ns:http://specs.openid.net/auth/2.0\nassoc_type:HMAC-SHA1\nassoc_handle:h\nexpires_in:10\nsession_type:no-encryption\nmac_key:AQI=\n"⟩),
   .store (.storeAssociation t!"http://op.example/" ⟨t!"h", [1, 2], 5, 10, t!"HMAC-SHA1"⟩) (.ok .nothing)]

/-- the handle of the association a request is made with -/
def begun0 : Option (Except Err (UserSession × Except Err AuthRequest)) → Option (Option Str)
  | some (.ok (_, .ok r)) => some (r.assoc.map (·.handle))
  | _ => none

example : begun0 (play (beginWithoutDiscovery cworld0 plainConf0 cenv0 ⟨none, none⟩ endpoint0 false) negotiation0) =
    some (some t!"h") := by decide +kernel

/-- what `begin` raises, if it does -/
def beginRaised0 : Option (Except Err (UserSession × Except Err AuthRequest)) → Option Err
  | some (.ok (_, .error e)) => some e
  | _ => none

/-- With no pair allowed the consumer does not go on without an association: an AssertionError is raised. -/
theorem c40_no_types_raises :
    beginRaised0 (play (beginWithoutDiscovery cworld0 ⟨true, []⟩ cenv0 ⟨none, none⟩ endpoint0 false)
      [.store (.getAssociation t!"http://op.example/" none) (.ok (.assoc none))]) = some (.py .assertionError) := by
  decide +kernel

/-- Only the session type is compared with the request: of the association type it is enough that it goes with the session,
    so one the negotiator does not list can be stored. -/
theorem c40_unlisted_type :
    begun0 (play (beginWithoutDiscovery cworld0 ⟨true, [(t!"HMAC-SHA256", t!"no-encryption")]⟩ cenv0 ⟨none, none⟩ endpoint0 false)
      [.store (.getAssociation t!"http://op.example/" none) (.ok (.assoc none)),
       .post t!"http://op.example/" (assocBody0 t!"HMAC-SHA256")
        (.ok ⟨200, Utf8.encode t!"ns:http://specs.openid.net/auth/2.0\nassoc_type:HMAC-SHA1\nassoc_handle:h\nexpires_in:10\nsession_type:no-encryption\nmac_key:AQI=\n"⟩),
       .store (.storeAssociation t!"http://op.example/" ⟨t!"h", [1, 2], 5, 10, t!"HMAC-SHA1"⟩) (.ok .nothing)]) =
    some (some t!"h") := by decide +kernel

/-- A reply in the form of OpenID 1 is taken without encryption, although the endpoint is of OpenID 2 and only a
    Diffie-Hellman session is allowed. -/
theorem c40_plain_reply_to_dh :
    begun0 (play (beginWithoutDiscovery cworld0 ⟨true, [(t!"HMAC-SHA1", t!"DH-SHA1")]⟩ cenv0 ⟨none, none⟩ endpoint0 false)
      [.store (.getAssociation t!"http://op.example/" none) (.ok (.assoc none)),
       .post t!"http://op.example/"
        t!"openid.assoc_type=HMAC-SHA1&openid.dh_consumer_public=IA%3D%3D&openid.mode=associate&openid.ns=http%3A%2F%2Fspecs.openid.net%2Fauth%2F2.0&openid.session_type=DH-SHA1"
        (.ok ⟨200, Utf8.encode t!"assoc_type:HMAC-SHA1\nassoc_handle:h\nexpires_in:10\nmac_key:AQI=\n"⟩),
       .store (.storeAssociation t!"http://op.example/" ⟨t!"h", [1, 2], 5, 10, t!"HMAC-SHA1"⟩) (.ok .nothing)]) =
    some (some t!"h") := by decide +kernel

end Props
