import Verif.Props.Asked
import Verif.Props.ServerAuth
import Verif.Lemmas.Attach
import Verif.Spec.Provider
/-! # C86: a provider that decides by what its visitors said -/

namespace Props
open Py Message Server Spec Provider Extend

/-! ## Answers -/

theorem take_nickname (user : Option Str) (l : List Str) (d : Dict Str Str)
    (hd : d = [] ∨ ∃ name, user = some name ∧ d = [(t!"nickname", name)]) :
    l.foldl (Sreg.takeValue [(t!"nickname", user)]) d = [] ∨
      ∃ name, user = some name ∧ l.foldl (Sreg.takeValue [(t!"nickname", user)]) d = [(t!"nickname", name)] ∧
        (t!"nickname" ∈ l ∨ d ≠ []) := by
  induction l generalizing d with
  | nil =>
    rcases hd with rfl | ⟨name, h1, rfl⟩
    · exact .inl rfl
    · exact .inr ⟨name, h1, rfl, .inr (by simp)⟩
  | cons f l ih =>
    rw [List.foldl_cons]
    by_cases hf : t!"nickname" = f
    · cases hu : user with
      | none =>
        have he : Sreg.takeValue [(t!"nickname", none)] d f = d := by
          rw [Sreg.takeValue, ← hf]; rfl
        subst hu
        rw [he]
        rcases ih d hd with h | ⟨name, h1, -⟩
        · exact .inl h
        · cases h1
      | some v =>
        subst hu
        have he : Sreg.takeValue [(t!"nickname", some v)] d f = [(t!"nickname", v)] := by
          rw [Sreg.takeValue, ← hf]
          rcases hd with rfl | ⟨name, h1, rfl⟩
          · rfl
          · rfl
        rw [he]
        rcases ih _ (.inr ⟨v, rfl, rfl⟩) with h | ⟨name, h1, h2, -⟩
        · exact .inl h
        · exact .inr ⟨name, h1, h2, .inl (by rw [hf]; exact List.mem_cons_self ..)⟩
    · have he : Sreg.takeValue [(t!"nickname", user)] d f = d := by
        rw [Sreg.takeValue]
        have : Dict.get? [(t!"nickname", user)] f = none := by simp [Dict.get?, hf]
        rw [this]
      rw [he]
      rcases ih d hd with h | ⟨name, h1, h2, h3⟩
      · exact .inl h
      · exact .inr ⟨name, h1, h2, h3.imp_left (List.mem_cons_of_mem _)⟩

theorem answer_identity {W : World} {E : Env} {r : CheckIDRequest} {told : Option Str} {resp : Response}
    (h : r.answer W E true none told none = .ok resp) :
    resp.request = .checkId r ∧ resp.fields.getArg .openid t!"mode" = .ok (some t!"id_res") ∧
    resp.fields.getArg .openid t!"identity" = .ok
      (if r.identity = some t!"http://specs.openid.net/auth/2.0/identifier_select" then given told else given r.identity) ∧
    (r.identity = some t!"http://specs.openid.net/auth/2.0/identifier_select" → given told ≠ none) := by
  obtain ⟨h1, oid, url, i, c, -, -, -, ha, hc, -⟩ := c35_yes W E r none told none resp h
  refine ⟨h1, hc.args _, ?_, ?_⟩
  · have := hc.args t!"identity"
    rw [this]
    show Except.ok i = _
    congr 1
    unfold Asserts at ha
    split at ha
    · next hs =>
      obtain ⟨x, k1, k2, -⟩ := ha
      rw [if_pos hs, k1, k2]
    · next hs =>
      rw [if_neg hs]
      split at ha
      · next y hy => rw [hy]; exact ha.1
      · next hy => rw [hy]; exact ha.2.1
  · intro hs hn
    rw [Asserts, if_pos hs] at ha
    obtain ⟨x, k1, -⟩ := ha
    rw [hn] at k1; cases k1

theorem plain_ok {α : Type} {x : Except PyErr α} {a : α} (h : lift x = .ok a) : x = .ok a := by
  cases x with
  | ok b => cases h; rfl
  | error e => cases h

theorem select_iff (r : CheckIDRequest) :
    r.idSelect = true ↔ r.identity = some t!"http://specs.openid.net/auth/2.0/identifier_select" := decide_eq_true_iff

theorem approve_yes {W : World} {E : Env} {r : CheckIDRequest} {user told identity : Option Str} {resp : Response}
    (h : approve W E r user told = .ok resp)
    (hi : (if r.identity = some t!"http://specs.openid.net/auth/2.0/identifier_select" then given told else given r.identity) =
      given identity) : SaysYes W r identity user resp := by
  rw [approve] at h
  obtain ⟨resp0, h1, h⟩ := bind_eq_ok.1 h
  rw [addSRegResponse] at h
  obtain ⟨req, h2, h⟩ := bind_eq_ok.1 h
  have h2 := plain_ok h2
  have h3 := plain_ok h
  obtain ⟨k1, k2, k3, -⟩ := answer_identity h1
  rw [hi] at k3
  have hr : resp.request = resp0.request := by
    rw [Honest.extendResponse_eq] at h3
    cases ha : Honest.attach resp0.fields [⟨(Sreg.extractResponse req [(t!"nickname", user)]).nsUri, t!"sreg",
        (Sreg.extractResponse req [(t!"nickname", user)]).data⟩] with
    | error e => rw [ha] at h3; cases h3
    | ok m => rw [ha] at h3; obtain rfl := Except.ok.inj h3; rfl
  refine ⟨by rw [hr, k1], E, told, resp0, _, _, h1, k2, k3, h3, ?_⟩
  rcases take_nickname user req.allRequestedFields [] (.inl rfl) with h | ⟨name, h4, h5, h6⟩
  · exact .inl h
  · exact .inr ⟨name, req, h4, h5, h2, h6.resolve_right (by simp)⟩

/-! ## What the provider keeps -/

section
variable {W : World} {base : Str} {op : Option Str}

theorem pending_later {h : List Event} {u : Option Str} {r : CheckIDRequest} (hp : Pending W op h u r) (e : Event)
    (he : e.user = u → ∀ r', e.shown ≠ .ok (.decide r')) : Pending W op (e :: h) u r := by
  obtain ⟨l, e0, l', q, E, rfl, h1, h2, h3, h4, h5, h6⟩ := hp
  refine ⟨e :: l, e0, l', q, E, rfl, h1, h2, h3, h4, h5, ?_⟩
  intro e' he'
  rcases List.mem_cons.1 he' with rfl | he'
  · exact he
  · exact h6 e' he'

theorem remembered_later {h : List Event} {i t : Option Str} (hp : Remembered W base op h i t) (e : Event) :
    Remembered W base op (e :: h) i t := by
  obtain ⟨l, e0, l', q, r, rfl, hr⟩ := hp
  exact ⟨e :: l, e0, l', q, r, rfl, hr⟩

/-- what a visit changes -/
theorem visit_changes (W : World) (E : Env) (base : Str) (op : Option Str) (s : Site) (user : Option Str) (v : Visit) :
    ((visit W E base op s user v).2.last = s.last ∧ (∀ r', (visit W E base op s user v).1 ≠ .ok (.decide r')) ∨
      ∃ q r, v = .endpoint q ∧ decode W E op q = .ok (some (.checkId r)) ∧ r.immediate = false ∧
        (∀ resp u, (visit W E base op s user v).1 ≠ .ok (.respond resp u)) ∧
        (visit W E base op s user v).2.last = s.last.set user r) ∧
    ((visit W E base op s user v).2.approved = s.approved ∨
      ∃ q r i, v = .allow q ∧ q.has t!"yes" = true ∧ q.get? t!"remember" = some t!"yes" ∧ s.last.get? user = some r ∧
        About base r q i ∧ (visit W E base op s user v).2.approved = s.approved.set (i, r.trustRoot) ()) := by
  have hm : ∀ (x : Except Err Response) r', x.map (Shown.respond · user) ≠ .ok (.decide r') := by
    intro x r' h; cases x <;> cases h
  cases v with
  | endpoint q =>
    simp only [visit, serverEndPoint]
    split
    · exact ⟨.inl ⟨rfl, by simp⟩, .inl rfl⟩
    · exact ⟨.inl ⟨rfl, by simp⟩, .inl rfl⟩
    · exact ⟨.inl ⟨rfl, by simp⟩, .inl rfl⟩
    · next r hd =>
      rw [handleCheckIDRequest]
      split
      · exact ⟨.inl ⟨rfl, hm _⟩, .inl rfl⟩
      · split
        · exact ⟨.inl ⟨rfl, hm _⟩, .inl rfl⟩
        · next him =>
          refine ⟨.inr ⟨q, r, rfl, hd, by simpa using him, ?_, rfl⟩, .inl rfl⟩
          intro resp u h
          simp only [showDecidePage] at h
          split at h
          · cases h
          · split at h <;> cases h
    · exact ⟨.inl ⟨rfl, by simp⟩, .inl rfl⟩
  | allow q =>
    simp only [visit, handleAllow]
    split
    · next hy =>
      split
      · exact ⟨.inl ⟨rfl, by simp⟩, .inl rfl⟩
      · next r hr =>
        simp only [allowYes]
        split
        · exact ⟨.inl ⟨rfl, by simp⟩, .inl rfl⟩
        · next i hi =>
          have hab : About base r q i := by
            rw [chosen] at hi
            unfold About
            split at hi
            · next hs =>
              rw [if_pos ((select_iff r).1 hs)]
              split at hi
              · next x hx => exact ⟨x, hx, (Except.ok.inj hi).symm⟩
              · cases hi
            · next hs =>
              rw [if_neg fun hc => hs ((select_iff r).2 hc)]
              exact (Except.ok.inj hi).symm
          have hm' : ∀ (u' : Option Str) (x : Except Err Response) r', x.map (Shown.respond · u') ≠ .ok (.decide r') := by
            intro u' x r' h; cases x <;> cases h
          split
          · next hrem => exact ⟨.inl ⟨rfl, hm' _ _⟩, .inr ⟨q, r, i, rfl, hy, hrem, hr, hab, rfl⟩⟩
          · exact ⟨.inl ⟨rfl, hm' _ _⟩, .inl rfl⟩
    · split
      · split
        · exact ⟨.inl ⟨rfl, by simp⟩, .inl rfl⟩
        · exact ⟨.inl ⟨rfl, hm _⟩, .inl rfl⟩
      · exact ⟨.inl ⟨rfl, by simp⟩, .inl rfl⟩

theorem history_keeps {h : List Event} {s : Site} (hh : History W base op h s) :
    (∀ u r, s.last.get? u = some r → Pending W op h u r) ∧
    (∀ i t x, s.approved.get? (i, t) = some x → Remembered W base op h i t) := by
  induction hh with
  | start =>
    constructor
    · intro u r h; cases h
    · intro i t x h; cases h
  | @visit h s hh E user v ih =>
    obtain ⟨ih1, ih2⟩ := ih
    obtain ⟨c1, c2⟩ := visit_changes W E base op s user v
    constructor
    · intro u r hu
      rcases c1 with ⟨k1, k2⟩ | ⟨q, r0, rfl, k2, k3, k4, k5⟩
      · rw [k1] at hu
        exact pending_later (ih1 u r hu) _ fun _ => k2
      · rw [k5] at hu
        by_cases hx : u = user
        · subst hx
          rw [Dict.get?_set, if_pos rfl] at hu
          obtain rfl := Option.some.inj hu
          exact ⟨[], _, h, q, E, rfl, rfl, rfl, k2, k3, k4, by simp⟩
        · rw [Dict.get?_set, if_neg (Ne.symm hx)] at hu
          exact pending_later (ih1 u r hu) _ fun hc => absurd hc.symm hx
    · intro i t x hx
      rcases c2 with k1 | ⟨q, r, i0, rfl, k2, k3, k4, k5, k6⟩
      · rw [k1] at hx
        exact remembered_later (ih2 i t x hx) _
      · rw [k6] at hx
        by_cases he : (i, t) = (i0, r.trustRoot)
        · obtain ⟨rfl, rfl⟩ := Prod.mk.inj he
          exact ⟨[], _, h, q, r, rfl, rfl, k2, k3, ih1 _ _ k4, rfl, k5⟩
        · rw [Dict.get?_set, if_neg (Ne.symm he)] at hx
          exact remembered_later (ih2 i t x hx) _

end

/-! ## C86 -/

/-- **C86** at the endpoint, a request about a user is answered yes, without the visitor being asked, only if the visitor is logged in as
    the user it is about, and a yes to that identity and trust root was to be remembered; otherwise the answer is no, and
    only to an immediate request; and an immediate request never makes a page to decide on. -/
theorem c86_endpoint (W : World) (E : Env) (base : Str) (op : Option Str) (h : List Event) (s : Site)
    (hh : History W base op h s) (user : Option Str) (q : Dict Str Str) (r : CheckIDRequest)
    (hd : decode W E op q = .ok (some (.checkId r))) :
    (∀ resp u, (visit W E base op s user (.endpoint q)).1 = .ok (.respond resp u) → u = user ∧
      ((SaysYes W r r.identity user resp ∧ (∃ name, user = some name ∧ r.identity = some (base ++ t!"id/" ++ name)) ∧
          Remembered W base op h r.identity r.trustRoot) ∨
        (SaysNo W r resp ∧ r.immediate = true))) ∧
    (∀ r', (visit W E base op s user (.endpoint q)).1 = .ok (.decide r') → r' = r ∧ r.immediate = false ∧
      (r.idSelect = true ∨ ∃ name, r.identity = some (base ++ t!"id/" ++ name))) := by
  simp only [visit, serverEndPoint, hd, handleCheckIDRequest]
  split
  · next ha =>
    refine ⟨fun resp u hx => ?_, fun r' hx => ?_⟩
    · cases hp : approve W E r user none with
      | error e => rw [hp] at hx; cases hx
      | ok y =>
        rw [hp] at hx
        obtain ⟨rfl, rfl⟩ := Shown.respond.inj (Except.ok.inj hx)
        refine ⟨rfl, .inl ?_⟩
        unfold isAuthorized at ha
        cases user with
        | none => cases ha
        | some name =>
          simp only at ha
          split at ha
          · cases ha
          · next hi =>
            have hi : r.identity = some (idUrl base name) := by simpa using hi
            refine ⟨approve_yes hp ?_, ⟨name, rfl, hi⟩, ?_⟩
            · split
              · next hs =>
                obtain ⟨resp0, h1, -⟩ := bind_eq_ok.1 (show approve W E r (some name) none = .ok _ from hp)
                exact absurd rfl ((answer_identity h1).2.2.2 hs)
              · rfl
            · obtain ⟨x, hx⟩ := Option.isSome_iff_exists.1 ha
              exact (history_keeps hh).2 _ _ x hx
    · cases hp : approve W E r user none with
      | error e => rw [hp] at hx; cases hx
      | ok y => rw [hp] at hx; cases hx
  · split
    · next him =>
      refine ⟨fun resp u hx => ?_, fun r' hx => ?_⟩
      · cases hp : r.answer W E false none none none with
        | error e => rw [hp] at hx; cases hx
        | ok y =>
          rw [hp] at hx
          obtain ⟨rfl, rfl⟩ := Shown.respond.inj (Except.ok.inj hx)
          exact ⟨rfl, .inr ⟨⟨E, hp⟩, him⟩⟩
      · cases hp : r.answer W E false none none none with
        | error e => rw [hp] at hx; cases hx
        | ok y => rw [hp] at hx; cases hx
    · next him =>
      refine ⟨fun resp u hx => ?_, fun r' hx => ?_⟩
      · simp only [showDecidePage] at hx
        split at hx
        · cases hx
        · split at hx <;> cases hx
      · simp only [showDecidePage] at hx
        split at hx
        · cases hx
        · next i hi =>
          split at hx
          · next hc =>
            obtain rfl := Shown.decide.inj (Except.ok.inj hx)
            refine ⟨rfl, by simpa using him, ?_⟩
            rcases Bool.or_eq_true_iff.1 hc with hc | hc
            · obtain ⟨t, ht⟩ := List.isPrefixOf_iff_prefix.1 hc
              exact .inr ⟨t, by rw [hi, ← ht]⟩
            · exact .inl hc
          · cases hx

/-- **C86** by the form, a visitor answers the request they brought last that was not answered at once: yes only if they
    say yes, about the identity asked for or entered, and no if they say no. -/
theorem c86_allow (W : World) (E : Env) (base : Str) (op : Option Str) (h : List Event) (s : Site)
    (hh : History W base op h s) (user : Option Str) (q : Dict Str Str) (resp : Response) (u : Option Str)
    (hx : (visit W E base op s user (.allow q)).1 = .ok (.respond resp u)) :
    ∃ r, Pending W op h user r ∧
      ((q.has t!"yes" = true ∧ u = (q.get? t!"login_as").or user ∧ ∃ i, About base r q i ∧ SaysYes W r i u resp) ∨
        (q.has t!"yes" = false ∧ q.has t!"no" = true ∧ u = user ∧ SaysNo W r resp)) := by
  simp only [visit, handleAllow] at hx
  split at hx
  · next hy =>
    split at hx
    · cases hx
    · next r hr =>
      refine ⟨r, (history_keeps hh).1 _ _ hr, .inl ⟨hy, ?_⟩⟩
      simp only [allowYes] at hx
      split at hx
      · cases hx
      · next i hi =>
        cases hp : approve W E r ((q.get? t!"login_as").or user) i with
        | error e => rw [hp] at hx; cases hx
        | ok y =>
          rw [hp] at hx
          obtain ⟨rfl, rfl⟩ := Shown.respond.inj (Except.ok.inj hx)
          rw [chosen] at hi
          split at hi
          · next hs =>
            have hs : r.identity = some t!"http://specs.openid.net/auth/2.0/identifier_select" := 
              (select_iff r).1 hs
            split at hi
            · next x hk =>
              obtain rfl := Except.ok.inj hi
              exact ⟨rfl, _, (if_pos hs).mpr ⟨x, hk, rfl⟩, approve_yes hp (if_pos hs)⟩
            · cases hi
          · next hs =>
            have hs : ¬ r.identity = some t!"http://specs.openid.net/auth/2.0/identifier_select" := 
              fun hc => hs ((select_iff r).2 hc)
            obtain rfl := Except.ok.inj hi
            exact ⟨rfl, _, (if_neg hs).mpr rfl, approve_yes hp (if_neg hs)⟩
  · next hy =>
    split at hx
    · next hn =>
      split at hx
      · cases hx
      · next r hr =>
        refine ⟨r, (history_keeps hh).1 _ _ hr, .inr ⟨by simpa using hy, hn, ?_⟩⟩
        cases hp : r.answer W E false none none none with
        | error e => rw [hp] at hx; cases hx
        | ok y =>
          rw [hp] at hx
          obtain ⟨rfl, rfl⟩ := Shown.respond.inj (Except.ok.inj hx)
          exact ⟨rfl, E, hp⟩
    · cases hx

/-! ## A concrete provider, and what it does not ask -/

/-- a request of a relying party about a user of the provider at `http://op/` -/
def brings0 (name rp : Str) : Visit :=
  .endpoint [(t!"openid.ns", t!"http://specs.openid.net/auth/2.0"), (t!"openid.mode", t!"checkid_setup"),
    (t!"openid.identity", t!"http://op/id/" ++ name), (t!"openid.claimed_id", t!"http://op/id/" ++ name),
    (t!"openid.return_to", rp), (t!"openid.realm", rp), (t!"openid.ns.sreg", t!"http://openid.net/extensions/sreg/1.1"),
    (t!"openid.sreg.required", t!"nickname,email")]

/-- what was shown: whether it is the page to decide on, or a response: its mode, identity and address, and the
    nickname in it -/
def view0 : Except Err Shown → List (Option Str)
  | .ok (.decide _) => [some t!"decide"]
  | .ok (.respond resp _) =>
    [(resp.fields.getArg .openid t!"mode").toOption.join, (resp.fields.getArg .openid t!"identity").toOption.join,
      (resp.fields.getArg .openid t!"return_to").toOption.join,
      (resp.fields.getArg (.uri t!"http://openid.net/extensions/sreg/1.1") t!"nickname").toOption.join]
  | _ => []

/-- visits one after the other -/
def play0 : Site → List (Option Str × Visit) → List (List (Option Str))
  | _, [] => []
  | s, (u, v) :: rest =>
    view0 (visit sworld0 senv0 t!"http://op/" (some t!"http://op/openidserver") s u v).1 ::
      play0 (visit sworld0 senv0 t!"http://op/" (some t!"http://op/openidserver") s u v).2 rest

def yes0 : Visit := .allow [(t!"yes", t!"yes")]
def always0 : Visit := .allow [(t!"yes", t!"yes"), (t!"remember", t!"yes")]

/-- Alice is asked, says yes and to remember it, and is not asked again by that relying party, but by another. -/
example : play0 ⟨[], []⟩ [(some t!"alice", brings0 t!"alice" t!"http://rp/"), (some t!"alice", always0),
      (some t!"alice", brings0 t!"alice" t!"http://rp/"), (some t!"alice", brings0 t!"alice" t!"http://other/"),
      (some t!"bob", brings0 t!"alice" t!"http://rp/"), (some t!"bob", .allow [(t!"no", t!"no")])] =
    [[some t!"decide"], [some t!"id_res", some t!"http://op/id/alice", some t!"http://rp/", some t!"alice"],
      [some t!"id_res", some t!"http://op/id/alice", some t!"http://rp/", some t!"alice"], [some t!"decide"],
      [some t!"decide"], [some t!"cancel", none, none, none]] := by decide +kernel

/-- whether it is a response -/
def isResponse0 : Except Err Shown → Bool
  | .ok (.respond _ _) => true
  | _ => false

theorem isResponse0_iff {x : Except Err Shown} (h : isResponse0 x = true) : ∃ resp u, x = .ok (.respond resp u) := by
  unfold isResponse0 at h
  split at h
  · exact ⟨_, _, rfl⟩
  · cases h

/-- what the provider keeps after Alice's yes -/
def site0 : Site :=
  (visit sworld0 senv0 t!"http://op/" (some t!"http://op/openidserver")
    (visit sworld0 senv0 t!"http://op/" (some t!"http://op/openidserver") ⟨[], []⟩ (some t!"alice")
      (brings0 t!"alice" t!"http://rp/")).2 (some t!"alice") always0).2

example : (∃ h, History sworld0 t!"http://op/" (some t!"http://op/openidserver") h site0) ∧ ∃ resp u,
    (visit sworld0 senv0 t!"http://op/" (some t!"http://op/openidserver") site0 (some t!"alice")
      (brings0 t!"alice" t!"http://rp/")).1 = .ok (.respond resp u) :=
  ⟨⟨_, .visit (.visit .start senv0 (some t!"alice") (brings0 t!"alice" t!"http://rp/")) senv0 (some t!"alice") always0⟩,
    isResponse0_iff (by decide +kernel)⟩

/-- **C86** falls short here: whoever says yes is believed.  A visitor who is logged in as somebody else and does not log
    in again gets the assertion all the same ... -/
theorem c86_anybody : play0 ⟨[], []⟩ [(some t!"mallory", brings0 t!"alice" t!"http://rp/"), (some t!"mallory", yes0)] =
    [[some t!"decide"], [some t!"id_res", some t!"http://op/id/alice", some t!"http://rp/", some t!"mallory"]] := by
  decide +kernel

/-- ... and can have a yes remembered in Alice's name, who then is not asked about that relying party. -/
theorem c86_remembered_for_others :
    play0 ⟨[], []⟩ [(some t!"mallory", brings0 t!"alice" t!"http://rp/"), (some t!"mallory", always0),
      (some t!"alice", brings0 t!"alice" t!"http://rp/")] =
    [[some t!"decide"], [some t!"id_res", some t!"http://op/id/alice", some t!"http://rp/", some t!"mallory"],
      [some t!"id_res", some t!"http://op/id/alice", some t!"http://rp/", some t!"alice"]] := by decide +kernel

/-- Visitors who are not logged in are all the same to the provider: one who was asked about a request says yes, and by
    that answers the request of another. -/
theorem c86_nobody_shared :
    play0 ⟨[], []⟩ [(none, brings0 t!"alice" t!"http://rp/"), (none, brings0 t!"bob" t!"http://other/"),
      (none, .allow [(t!"yes", t!"yes"), (t!"login_as", t!"alice")])] =
    [[some t!"decide"], [some t!"decide"],
      [some t!"id_res", some t!"http://op/id/bob", some t!"http://other/", some t!"alice"]] := by decide +kernel

/-- A request about somebody who is not a user here ends in an error, but is kept, and the next yes answers it. -/
theorem c86_not_here :
    play0 ⟨[], []⟩ [(some t!"alice", .endpoint [(t!"openid.ns", t!"http://specs.openid.net/auth/2.0"),
        (t!"openid.mode", t!"checkid_setup"), (t!"openid.identity", t!"http://elsewhere/"),
        (t!"openid.claimed_id", t!"http://elsewhere/"), (t!"openid.return_to", t!"http://rp/")]), (some t!"alice", yes0)] =
    [[], [some t!"id_res", some t!"http://elsewhere/", some t!"http://rp/", none]] := by decide +kernel

end Props
