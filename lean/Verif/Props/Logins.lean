import Verif.Lemmas.Logins
/-! # C78: any number of logins at once -/

namespace Props
open Py Message Association Cryptutil Store Discover Consumer Spec DH Extend

/-- **C78** Any number of users log in to one relying party with one provider, at the same time: their logins begin, are
    answered and come back in any order, among whatever else the two do; associations made for one are used for others.  No
    step of any login ever fails, and every login that is over ended as its own user said: with success and who they are, with
    whom the provider chose, or with no. -/
theorem c78_logins {σ τ ι : Type} [DecidableEq ι] {K : Venue σ τ} {L : ι → Attempt} {untilC untilP : Int} (hK : WorkTogether K)
    (hL : ∀ i, Proceeds K untilC untilP (L i)) (hD : Different K L) {S S' : Scene σ τ ι} (hS : Ready K L untilC untilP S)
    {moves : List (Move σ τ ι)} (hgo : Goes K L untilP S moves S') (i : ι) : GoesWell K.W (L i) (S'.phase i) := by
  have := ((ready_standing hS).goes hK hL hD hgo).stands i
  cases hp : S'.phase i with
  | waiting => trivial
  | away s url => trivial
  | back s r w => rw [hp] at this; exact ⟨this.1, this.2.1⟩
  | over r => rw [hp] at this; exact this
  | failed => rw [hp] at this; exact this

/-- **C78** And however far the others are, each login can be finished. -/
theorem c78_finishes {σ τ ι : Type} [DecidableEq ι] {K : Venue σ τ} {L : ι → Attempt} {untilC untilP : Int} (hK : WorkTogether K)
    (hL : ∀ i, Proceeds K untilC untilP (L i)) (hD : Different K L) {S S' : Scene σ τ ι} (hS : Ready K L untilC untilP S)
    {moves : List (Move σ τ ι)} (hgo : Goes K L untilP S moves S') (i : ι) :
    ∃ more S'', Goes K L untilP S' more S'' ∧ (∃ r, S''.phase i = .over r) ∧ ∀ j, j ≠ i → S''.phase j = S'.phase j := by
  have h := (ready_standing hS).goes hK hL hD hgo
  have back : ∀ (S : Scene σ τ ι) {s r w}, Standing K L untilC untilP S → S.phase i = .back s r w →
      ∃ more S'', Goes K L untilP S more S'' ∧ (∃ r, S''.phase i = .over r) ∧ ∀ j, j ≠ i → S''.phase j = S.phase j := by
    intro S s r w h hp
    have hs := h.stands i
    rw [hp] at hs
    obtain ⟨-, ⟨q, hq⟩, -⟩ := hs
    refine ⟨[.complete i q], _, ⟨s, r, w, hp, hq, rfl⟩, ⟨_, by rw [Scene.completes, put_phase, if_pos rfl]⟩, fun j hj => ?_⟩
    rw [Scene.completes, put_phase, if_neg hj]
  have away : ∀ (S : Scene σ τ ι) {s url}, Standing K L untilC untilP S → S.phase i = .away s url →
      ∃ more S'', Goes K L untilP S more S'' ∧ (∃ r, S''.phase i = .over r) ∧ ∀ j, j ≠ i → S''.phase j = S.phase j := by
    intro S s url h hp
    have hs := h.stands i
    rw [hp] at hs
    obtain ⟨sc1, req, g1, g2, g3⟩ := hs
    obtain ⟨r, resp, resp', w, sp3, d1, d2, d3, d4, d5, -⟩ := g3 S.op
      (fun k x hx => h.step k x (g1 k x hx)) (parameters url) (Dict.WF_ofPairs _) (fun _ => rfl)
    have hS : S.answers K L i s (parameters url) = S.put S.rp sp3 i (.back s r w) := by
      simp only [Scene.answers, d1, d3, d4, d5]
    have h' := h.answers (q := parameters url) hL hD hp (Dict.WF_ofPairs _) (fun _ => rfl)
    obtain ⟨more, S'', k1, k2, k3⟩ := back _ h' (by rw [hS, put_phase, if_pos rfl])
    refine ⟨.answer i (parameters url) :: more, S'', ⟨s, url, hp, Dict.WF_ofPairs _, fun _ => rfl, k1⟩, k2, fun j hj => ?_⟩
    rw [k3 j hj, hS, put_phase, if_neg hj]
  cases hp : S'.phase i with
  | waiting =>
    obtain ⟨sc1, sp1, s1, req, req', url, b1, c1, c2, -⟩ := Props.begins hK (hL i) S'.rp S'.op h.step h.rank
    have hS : S'.begins K L i = S'.put sc1 sp1 i (.away s1 url) := by
      simp only [Scene.begins, b1, c1, ok_bind, c2]
    have h' := h.begins hK hL hD hp
    obtain ⟨more, S'', k1, k2, k3⟩ := away _ h' (by rw [hS, put_phase, if_pos rfl])
    refine ⟨.begin i :: more, S'', ⟨hp, k1⟩, k2, fun j hj => ?_⟩
    rw [k3 j hj, hS, put_phase, if_neg hj]
  | away s url => exact away _ h hp
  | back s r w => exact back _ h hp
  | over r => exact ⟨[], S', rfl, ⟨r, hp⟩, fun _ _ => rfl⟩
  | failed =>
    have hs := h.stands i
    rw [hp] at hs
    exact hs.elim

/-- a relying party, with or without a store, and a provider -/
def venue0 (store : Bool) : Venue MemStore.Kept MemStore.Kept where
  W := pairConsumer0
  C := { cconf0 with hasStore := store }
  stepC := MemStore.keptStep clock0
  viewC := MemStore.keptView
  used := fun s u t x => (u, t, x) ∈ Dict.keys s.1.nonces
  ranked := fun _ _ => True
  V := pairServer0
  n := defaultAssociationOrder
  text := fun _ _ => []
  stepP := MemStore.keptStep clock0
  viewP := MemStore.keptView
  url := t!"http://op.example/"
  pages := fun _ => .error .fetchingError
  elsewhere := fun _ _ => .error .fetchingError

def endpoint78 : Endpoint :=
  ⟨some t!"http://v.example/", t!"http://op.example/", [t!"http://openid.net/signon/1.1"], some t!"http://op.example/v", none, true, none⟩

def attempt0 : Attempt :=
  ⟨t!"u.example", fun _ => .ok (t!"http://u.example/", [endpoint0]), t!"http://u.example/", endpoint0, [], false, none,
    t!"http://*.example/", t!"http://rp.example/back?x=1", t!"HTTP://rp.example:80/back", false, [], .yes, [],
    fun _ => .ok (t!"http://u.example/", [endpoint0]), cenv0, senv0, senv74, cenv74, senv74⟩

/-- four users of one provider: one says yes; one too, at once, with OpenID 1; one says no; and one is chosen -/
def attempts0 : Bool × Bool → Attempt
  | (false, false) => attempt0
  | (false, true) => { attempt0 with
      typed := t!"v.example", disc := fun _ => .ok (t!"http://v.example/", [endpoint78]), name := t!"http://v.example/",
      e := endpoint78, immediate := true, E0 := { cenv0 with now := 6000, salt := t!"ghijkl" },
      E1 := { senv0 with now := 6000, uniq := [5, 6, 7, 8] }, Es := { senv74 with now := 8000, uniq := [1, 9, 1, 9] } }
  | (true, false) => { attempt0 with
      says := .no, E0 := { cenv0 with salt := t!"mnopqr" }, E1 := { senv0 with uniq := [2, 2, 2, 2] },
      Es := { senv74 with uniq := [7, 7, 7, 7], salt := t!"other" } }
  | (true, true) => { attempt0 with
      typed := t!"op.example", disc := fun _ => .ok (t!"http://op.example/", [chooser0]), name := t!"http://op.example/",
      e := chooser0, says := .chooses t!"http://op.example/u" (some t!"http://u.example/#f"),
      E0 := { cenv0 with salt := t!"stuvwx" }, E1 := { senv0 with uniq := [3, 2, 2, 2] },
      Es := { senv74 with uniq := [6, 7, 7, 7], salt := t!"third" } }

theorem canMeet0 (store : Bool) (i : Bool × Bool) : CanAssociate (venue0 store).W (venue0 store).V (venue0 store).C (venue0 store).n
    (attempts0 i).E0 (attempts0 i).E1 := by
  rcases i with ⟨_ | _, _ | _⟩ <;> cases store <;>
  exact ⟨⟨rfl, rfl, rfl, fun x => List.length_replicate, fun x => List.length_replicate⟩,
   ⟨_, _, _, rfl, by decide, by decide⟩, fun _ _ _ _ => rfl, fun _ _ _ _ => ⟨rfl, rfl, fun _ => List.cons_ne_nil _ _⟩,
   ⟨fun n => List.length_replicate, fun x => List.length_replicate, fun x => List.length_replicate,
    fun _ _ => List.cons_ne_nil _ _⟩⟩

theorem proceeds0 (store : Bool) (i : Bool × Bool) : Proceeds (venue0 store) 1209605 1209605 (attempts0 i) := by
  have hask : match (attempts0 i).says with
    | .yes => Askable (attempts0 i).e
    | .no => (Askable (attempts0 i).e ∨ Choosing (attempts0 i).e ∧ (attempts0 i).anonymous = false) ∧ (attempts0 i).tells = [] ∧
        ((attempts0 i).immediate = true → versionOf (attempts0 i).e = t!"http://specs.openid.net/auth/2.0" ∧ (attempts0 i).anonymous = false)
    | .chooses identity claimed => Choosing (attempts0 i).e ∧ (attempts0 i).anonymous = false ∧ Plain identity ∧ Plain (chosen identity claimed) ∧
        ∃ name found d, (attempts0 i).disc' (chosen identity claimed) = .ok (name, found) ∧ d ∈ found ∧ d.serverUrl = (venue0 store).url ∧
          Agrees (venue0 store).W [t!"http://specs.openid.net/auth/2.0/signon"] d (chosen identity claimed) identity := by
    rcases i with ⟨_ | _, _ | _⟩
    · exact askable0
    · exact ⟨by decide, by decide +kernel, by decide, ⟨_, rfl, by decide⟩, ⟨_, rfl, by decide⟩⟩
    · exact ⟨.inl askable0, rfl, fun h => nomatch h⟩
    · cases store <;> exact ⟨choosing0, rfl, by decide, by decide, t!"http://u.example/", [endpoint0], endpoint0, rfl, by simp, rfl,
        ⟨by decide, ⟨t!"http://u.example/", t!"f", by decide +kernel⟩, by decide⟩⟩
  refine ⟨?_, hask, ?_, ?_, ?_, ?_, ?_, fun _ => canMeet0 store i, ?_, ?_, ?_, ?_, fun u t x h => ?_⟩
  · rcases i with ⟨_ | _, _ | _⟩ <;> rfl
  · rcases i with ⟨_ | _, _ | _⟩ <;> rfl
  · rcases i with ⟨_ | _, _ | _⟩ <;> intro h <;> cases h
  · rcases i with ⟨_ | _, _ | _⟩ <;> exact no_extensions _ _
  · rcases i with ⟨_ | _, _ | _⟩ <;> exact ⟨no_extensions _ _, no_extensions _ _, fun _ h => nomatch h⟩
  · rcases i with ⟨_ | _, _ | _⟩ <;> exact returnable0
  · rcases i with ⟨_ | _, _ | _⟩ <;> decide
  · rcases i with ⟨_ | _, _ | _⟩ <;> cases store <;> decide
  · rcases i with ⟨_ | _, _ | _⟩ <;> cases store <;> decide
  · rcases i with ⟨_ | _, _ | _⟩ <;> cases store <;> decide
  · unfold IsNonce at h
    rcases i with ⟨_ | _, _ | _⟩ <;> cases store <;>
      first
      | (rw [if_pos (by decide)] at h; obtain ⟨-, rfl, -⟩ := h; decide)
      | (rw [if_neg (by decide)] at h; obtain ⟨-, rfl, -⟩ := h; decide)

theorem different0 (store : Bool) : Different (venue0 store) attempts0 where
  nonces i j u t x hi hj := by
    unfold IsNonce at hi hj
    rcases i with ⟨_ | _, _ | _⟩ <;> rcases j with ⟨_ | _, _ | _⟩ <;> first
      | rfl
      | (exfalso
         first
         | rw [if_pos (by decide)] at hi
         | rw [if_neg (by decide)] at hi
         first
         | rw [if_pos (by decide)] at hj
         | rw [if_neg (by decide)] at hj
         obtain ⟨hi1, -, hi2⟩ := hi
         obtain ⟨hj1, -, hj2⟩ := hj
         first
         | (rw [hi1] at hj1; revert hj1; decide)
         | (rw [hi2] at hj2; revert hj2; decide))
  shared i j a b ha hb hh := by
    obtain ⟨_, t1, -, -, -, e1⟩ := ha
    obtain ⟨_, t2, -, -, -, e2⟩ := hb
    rw [e1, e2] at hh
    clear e1 e2
    revert hh
    rcases t1 with ⟨t1, -⟩ | ⟨t1, -⟩ <;> rcases t2 with ⟨t2, -⟩ | ⟨t2, -⟩ <;> rw [t1, t2] <;>
      rcases i with ⟨_ | _, _ | _⟩ <;> rcases j with ⟨_ | _, _ | _⟩ <;> cases store <;> decide +kernel
  secret i j a b ha hb hh := by
    obtain ⟨_, t1, -, -, -, e1⟩ := ha
    obtain ⟨_, t2, -, -, -, e2⟩ := hb
    rw [e1, e2] at hh
    clear e1 e2
    revert hh
    rcases t1 with ⟨t1, -⟩ | ⟨t1, -⟩ <;> rcases t2 with ⟨t2, -⟩ | ⟨t2, -⟩ <;> rw [t1, t2] <;>
      rcases i with ⟨_ | _, _ | _⟩ <;> rcases j with ⟨_ | _, _ | _⟩ <;> cases store <;> decide +kernel
  apart i j a b ha hb hh := by
    obtain ⟨_, t1, -, -, -, e1⟩ := ha
    obtain ⟨_, t2, -, -, -, e2⟩ := hb
    rw [e1, e2] at hh
    clear e1 e2
    revert hh
    rcases t1 with ⟨t1, -⟩ | ⟨t1, -⟩ <;> rcases t2 with ⟨t2, -⟩ | ⟨t2, -⟩ <;> rw [t1, t2] <;>
      rcases i with ⟨_ | _, _ | _⟩ <;> rcases j with ⟨_ | _, _ | _⟩ <;> cases store <;> decide +kernel

def scene0 : Scene MemStore.Kept MemStore.Kept (Bool × Bool) := ⟨MemStore.keptInit, MemStore.keptInit, fun _ => .waiting⟩

theorem fits0 (store : Bool) : WorkTogether (venue0 store) :=
  ⟨rfl, rfl, by intro t k x; simp [venue0, pairServer0, sworld0, smac0],
    by intro alias uri h; simp [venue0, pairConsumer0, pairServer0, sworld0] at h,
    by intro alias uri h; simp [venue0, pairServer0, sworld0] at h, c74_memory_store clock0, fun _ _ _ _ => ⟨_, rfl⟩,
    MemStore.faithful clock0, fun _ _ _ _ => ⟨_, rfl⟩⟩

theorem ready0 (store : Bool) : Ready (venue0 store) attempts0 1209605 1209605 scene0 :=
  ⟨fun _ => rfl, fun h a k => (nomatch k), trivial, fun u h b k => (nomatch k), fun h a k => (nomatch k),
    fun i u t x _ k => (nomatch k)⟩

theorem goes_append {σ τ ι : Type} [DecidableEq ι] {K : Venue σ τ} {L : ι → Attempt} {untilP : Int} {S S' S'' : Scene σ τ ι}
    {l l' : List (Move σ τ ι)} (h : Goes K L untilP S l S') (h' : Goes K L untilP S' l' S'') : Goes K L untilP S (l ++ l') S'' := by
  induction l generalizing S with
  | nil => cases h; exact h'
  | cons m l ih =>
    cases m with
    | begin i => exact ⟨h.1, ih h.2⟩
    | answer i q => obtain ⟨s, url, a, b, c, d⟩ := h; exact ⟨s, url, a, b, c, ih d⟩
    | complete i q => obtain ⟨s, r, w, a, b, c⟩ := h; exact ⟨s, r, w, a, b, ih c⟩
    | other rp op => exact ⟨h.1, ih h.2⟩

-- All four logins begin before one of them is finished; then they are finished, in another order: all end as their users said.
example (store : Bool) : ∃ moves S, Goes (venue0 store) attempts0 1209605 scene0
      (.begin (false, false) :: .begin (false, true) :: .begin (true, false) :: .begin (true, true) :: moves) S ∧
    ∀ i, ∃ r, S.phase i = .over r ∧ EndsWell (venue0 store).W (attempts0 i) r := by
  have hK := fits0 store
  have hL := proceeds0 store
  have hD := different0 store
  have hS := ready0 store
  have h1 : Goes (venue0 store) attempts0 1209605 scene0
      [.begin (false, false), .begin (false, true), .begin (true, false), .begin (true, true)]
      ((((scene0.begins (venue0 store) attempts0 (false, false)).begins (venue0 store) attempts0 (false, true)).begins
        (venue0 store) attempts0 (true, false)).begins (venue0 store) attempts0 (true, true)) := ⟨rfl, rfl, rfl, rfl, rfl⟩
  obtain ⟨m1, S1, g1, ⟨r1, k1⟩, -⟩ := c78_finishes hK hL hD hS h1 (true, true)
  obtain ⟨m2, S2, g2, ⟨r2, k2⟩, l2⟩ := c78_finishes hK hL hD hS (goes_append h1 g1) (false, true)
  obtain ⟨m3, S3, g3, ⟨r3, k3⟩, l3⟩ := c78_finishes hK hL hD hS (goes_append (goes_append h1 g1) g2) (false, false)
  obtain ⟨m4, S4, g4, ⟨r4, k4⟩, l4⟩ := c78_finishes hK hL hD hS (goes_append (goes_append (goes_append h1 g1) g2) g3) (true, false)
  have hall := goes_append (goes_append (goes_append (goes_append h1 g1) g2) g3) g4
  refine ⟨m1 ++ m2 ++ m3 ++ m4, S4, by simpa using hall, fun i => ?_⟩
  have hgood := c78_logins hK hL hD hS hall i
  have hover : ∃ r, S4.phase i = .over r := by
    rcases i with ⟨_ | _, _ | _⟩
    · exact ⟨r3, by rw [l4 _ (by decide), k3]⟩
    · exact ⟨r2, by rw [l4 _ (by decide), l3 _ (by decide), k2]⟩
    · exact ⟨r4, k4⟩
    · exact ⟨r1, by rw [l4 _ (by decide), l3 _ (by decide), l2 _ (by decide), k1]⟩
  obtain ⟨r, hr⟩ := hover
  rw [hr] at hgood
  exact ⟨r, hr, hgood⟩

end Props
