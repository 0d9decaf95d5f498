import Verif.Lemmas.AxSend
import Verif.Props.Sreg
import Verif.Props.TrustRoot
/-! # C45: attribute exchange -/

namespace Props
open Py Message Spec Association Ax

/-! ## fetch requests -/

/-- C45: A request to which attributes were added, in any order, some of which may have been refused, has each attribute
    once, under its type, and no alias that cannot stand in a list. -/
theorem c45_history (r : FetchRequest) (hr : Made r) (ops : List (Str × Count × Bool × Option Str)) :
    Made (adds r ops) ∧ (adds r ops).updateUrl = r.updateUrl ∧
    ∀ u i, r.requested.get? u = some i → (adds r ops).requested.get? u = some i := by
  induction ops generalizing r with
  | nil => exact ⟨hr, rfl, fun _ _ h => h⟩
  | cons o ops ih =>
    obtain ⟨u, c, b, a⟩ := o
    rw [adds]
    cases hn : AttrInfo.new u c b a with
    | error e => exact ih r hr
    | ok i =>
      simp only []
      cases ha : r.add i with
      | error e => exact ih r hr
      | ok r' =>
        simp only []
        have hi : i = ⟨u, c, b, a⟩ ∧ ∀ x, a = some x → ',' ∉ x ∧ '.' ∉ x := by
          unfold AttrInfo.new at hn
          cases a with
          | none => cases hn; exact ⟨rfl, by simp⟩
          | some x =>
            simp only [] at hn
            obtain ⟨⟨⟩, h1, h2⟩ := bind_eq_ok.1 hn
            cases h2
            exact ⟨rfl, fun y hy => by cases hy; exact checkAlias_ok.1 h1⟩
        obtain ⟨rfl, hal⟩ := hi
        unfold FetchRequest.add at ha
        split at ha
        next => cases ha
        next hnot =>
        cases ha
        simp only [Dict.has, Bool.not_eq_true, Option.isSome_eq_false_iff, Option.isNone_iff_eq_none] at hnot
        obtain ⟨g1, g2, g3⟩ := ih { r with requested := r.requested.set u ⟨u, c, b, a⟩ } (by
          refine ⟨Dict.WF_set _ hr.wf _ _, ?_, ?_⟩
          · intro w i hw
            simp only [Dict.get?_set] at hw
            split at hw
            · next e => cases hw; exact e
            · exact hr.key w i hw
          · intro w i x hw hx
            simp only [Dict.get?_set] at hw
            split at hw
            · cases hw; exact hal x hx
            · exact hr.alias w i x hw hx)
        refine ⟨g1, g2, fun w i hw => g3 w i ?_⟩
        simp only [Dict.get?_set]
        rw [if_neg]
        · exact hw
        · rintro rfl; rw [hnot] at hw; cases hw

theorem made_empty (u : Option Str) : Made { updateUrl := u } :=
  ⟨Dict.WF_nil, by simp [Dict.get?], by simp [Dict.get?]⟩

/-- C45: An attribute that was not asked for can be added; another cannot. -/
theorem c45_add (r : FetchRequest) (i : AttrInfo) :
    (r.requested.get? i.typeUri = none ∧ ∃ r', r.add i = .ok r' ∧ r'.updateUrl = r.updateUrl ∧
      ∀ u, r'.requested.get? u = if u = i.typeUri then some i else r.requested.get? u) ∨
    (r.requested.get? i.typeUri ≠ none ∧ r.add i = .error .keyError) := by
  unfold FetchRequest.add
  cases hg : r.requested.get? i.typeUri with
  | none =>
    left
    rw [if_neg (by simp [Dict.has, hg])]
    refine ⟨rfl, _, rfl, rfl, fun u => ?_⟩
    simp only [Dict.get?_set]
    by_cases e : i.typeUri = u
    · subst e; simp
    · have e' : ¬ u = i.typeUri := fun x => e x.symm
      simp [e, e']
  | some j => right; exact ⟨by simp, by rw [if_pos (by simp [Dict.has, hg])]⟩

/-- C45: `getRequiredAttrs` gives the types that were asked for as required, each once. -/
theorem c45_required (r : FetchRequest) (hr : Made r) :
    r.getRequiredAttrs.Nodup ∧ ∀ u, u ∈ r.getRequiredAttrs ↔ ∃ i, r.requested.get? u = some i ∧ i.required = true := by
  have hw : Dict.WF r.requested := hr.1
  refine ⟨?_, fun u => ?_⟩
  · exact hw.sublist (List.Sublist.map _ List.filter_sublist)
  · simp only [FetchRequest.getRequiredAttrs, List.mem_map, List.mem_filter]
    constructor
    · rintro ⟨⟨u', i⟩, ⟨hm, hi⟩, rfl⟩
      exact ⟨i, (Dict.mem_iff_get? _ hw _ _).1 hm, hi⟩
    · rintro ⟨i, hg, hi⟩
      exact ⟨(u, i), ⟨(Dict.mem_iff_get? _ hw _ _).2 hg, hi⟩, rfl⟩

example : FetchRequest.getRequiredAttrs (adds {} [(t!"http://a/", .num 1, true, none), (t!"http://b/", .num 1, false, none)]) =
    [t!"http://a/"] := by decide +kernel

/-- C45: Arguments are a fetch request exactly when the mode is given, no type has two aliases and no alias is unusable,
    every count is a positive number or `unlimited`, every alias that is listed has a type and every type is listed; and
    then the request asks for exactly these types, with these counts and aliases, the required ones as required. -/
theorem c45_fetch_parse (X : ExtraDigits) (args : Dict Str Str) (hw : Dict.WF args) :
    ((∃ r, FetchRequest.parseExtensionArgs X {} args = .ok r) ↔ FetchOk X args) ∧
    ∀ r, FetchRequest.parseExtensionArgs X {} args = .ok r → Dict.WF r.requested ∧
      r.updateUrl = args.get? t!"update_url" ∧
      ∀ u i, r.requested.get? u = some i ↔ ∃ a c, typeOf args a = some u ∧ CountIs X args a c ∧
        i = ⟨u, c, decide (a ∈ namesIn (args.get? t!"required")), some a⟩ := fetchParse_iff X args hw

/-- C45: A request that was parsed is one to which attributes were added, and its aliases can be used again. -/
theorem c45_parsed_made (X : ExtraDigits) (args : Dict Str Str) (hw : Dict.WF args) (r : FetchRequest)
    (h : FetchRequest.parseExtensionArgs X {} args = .ok r) :
    Made r ∧ (∀ u i, r.requested.get? u = some i → Countable i.count ∧ ∃ a, i.alias = some a ∧ Nameable a) ∧
    ∀ u v i j, r.requested.get? u = some i → r.requested.get? v = some j → i.alias = j.alias → u = v := by
  obtain ⟨h1, h2⟩ := fetchParse_iff X args hw
  have hok := h1.1 ⟨r, h⟩
  obtain ⟨g1, g2, g3⟩ := h2 r h
  refine ⟨⟨g1, ?_, ?_⟩, ?_, ?_⟩
  · intro u i hu
    obtain ⟨a, c, -, -, rfl⟩ := (g3 u i).1 hu; rfl
  · intro u i a hu ha
    obtain ⟨b, c, hb, -, rfl⟩ := (g3 u i).1 hu
    cases ha
    have := hok.types.alias _ u hb
    exact ⟨this.1, this.2.1⟩
  · intro u i hu
    obtain ⟨b, c, hb, hc, rfl⟩ := (g3 u i).1 hu
    refine ⟨?_, b, rfl, hok.types.alias b u hb⟩
    rcases hc with ⟨-, rfl⟩ | ⟨s, -, -, ⟨n, -, hn, rfl⟩ | ⟨-, -, rfl⟩⟩
    · exact .inr ⟨1, by omega, rfl⟩
    · exact .inr ⟨n, hn, rfl⟩
    · exact .inl rfl
  · intro u v i j hu hv e
    obtain ⟨a, c, ha, -, rfl⟩ := (g3 u i).1 hu
    obtain ⟨b, c', hb, -, rfl⟩ := (g3 v j).1 hv
    cases e
    rw [ha] at hb; cases hb; rfl

/-- C45: The arguments of a request: the type of each attribute under an alias of its own (the one it was given, or `ext` and a number),
    the count unless it is one, the lists of the required attributes and the others; nothing else. -/
theorem c45_fetch_args {r : FetchRequest} (hr : Made r) {args : Dict Str Str} (h : r.getExtensionArgs = .ok args) :
    ∃ name, Dict.WF args ∧ Names name (fun u => (r.requested.get? u).isSome = true) ∧
      (∀ u i, r.requested.get? u = some i → (∀ a, i.alias = some a → name u = a) ∧
        (i.alias = none → ∃ j, name u = t!"ext" ++ natToStr j)) ∧ Asks args name r := fetch_asks hr h

/-- what the aliases of processed attributes are -/
def From (P : List (Str × AttrInfo)) (m : NamespaceMap) : Prop :=
  ∀ w x, m.nsToAlias.get? w = some x → ∃ i, (w, i) ∈ P ∧
    ((∃ a, i.alias = some a ∧ x = .name a) ∨ (i.alias = none ∧ ∃ j, x = NamespaceMap.ext j))

theorem named_ex (P l : List (Str × AttrInfo)) (hw : Dict.WF (P ++ l)) (m : NamespaceMap) (hm : Good m) (hf : From P m)
    (hn : ∀ x ∈ P ++ l, ∀ a, x.2.alias = some a → Nameable a)
    (hd : ∀ x ∈ P ++ l, ∀ y ∈ P ++ l, ∀ a, x.2.alias = some a → y.2.alias = some a → x.1 = y.1)
    (he : (∀ x ∈ P ++ l, x.2.alias ≠ none) ∨ ∀ x ∈ P ++ l, ∀ n, x.2.alias ≠ some (t!"ext" ++ natToStr n)) :
    ∃ n, named m l = .ok n := by
  induction l generalizing P m with
  | nil => exact ⟨[], rfl⟩
  | cons y l ih =>
    obtain ⟨u, i⟩ := y
    have hfresh : ∀ j, (u, j) ∉ P := by
      intro j hm
      rw [Dict.WF, Dict.keys, List.map_append, List.nodup_append] at hw
      exact hw.2.2 u (List.mem_map.2 ⟨_, hm, rfl⟩) u (by simp) rfl
    have hnone : m.nsToAlias.get? u = none := by
      cases hg : m.nsToAlias.get? u with
      | none => rfl
      | some x => obtain ⟨j, hj, -⟩ := hf u x hg; exact absurd hj (hfresh j)
    have key : ∃ m1, pickAlias m u i.alias = .ok m1 ∧ From (P ++ [(u, i)]) m1 := by
      cases hal : i.alias with
      | some a =>
        have hna : Nameable a := hn (u, i) (by simp) a hal
        have hfree : m.aliasToNs.get? (.name a) = none := by
          cases hg : m.aliasToNs.get? (.name a) with
          | none => rfl
          | some w =>
            exfalso
            obtain ⟨j, hj, ⟨b, hb, e⟩ | ⟨hb, k, e⟩⟩ := hf w _ ((hm.inv.bij _ _).1 hg)
            · cases e
              have := hd (w, j) (by simp [hj]) (u, i) (by simp) a hb hal
              simp only at this
              subst this
              exact hfresh j hj
            · rcases he with he | he
              · exact he (w, j) (by simp [hj]) hb
              · refine he (u, i) (by simp) k ?_
                simp only [NamespaceMap.ext, Alias.name.injEq] at e
                rw [hal, e]
        have hadd := NamespaceMap.addAlias_of m u (.name a) false (nameable_okAlias hna) (.inl hfree) (.inl hnone) (by rw [hm.imp]; simp)
        refine ⟨_, hadd, ?_⟩
        intro w x hx
        simp only [Dict.get?_set] at hx
        split at hx
        · next e => subst e; cases hx; exact ⟨i, by simp, .inl ⟨a, hal, rfl⟩⟩
        · obtain ⟨j, hj, r⟩ := hf w x hx; exact ⟨j, by simp [hj], r⟩
      | none =>
        rcases NamespaceMap.add_total m hm.inv u with ⟨x, h1, -⟩ | ⟨-, j, m', h2, h3, h4, h5⟩
        · rw [hnone] at h1; cases h1
        · refine ⟨m', h5, ?_⟩
          obtain ⟨-, -, -, -, rfl⟩ := NamespaceMap.addAlias_ok _ _ _ _ _ h4
          intro w x hx
          simp only [Dict.get?_set] at hx
          split at hx
          · next e => subst e; cases hx; exact ⟨i, by simp, .inr ⟨hal, j, rfl⟩⟩
          · obtain ⟨j, hj, r⟩ := hf w x hx; exact ⟨j, by simp [hj], r⟩
    obtain ⟨m1, hm1, hf1⟩ := key
    obtain ⟨g1, ⟨b, g2, -⟩, -⟩ := pick_good hm (fun a ha => (hn (u, i) (by simp) a ha).1) hm1
    obtain ⟨n, hn'⟩ := ih (P ++ [(u, i)]) (by simpa using hw) m1 g1 hf1 (by simpa using hn) (by simpa using hd) (by simpa using he)
    exact ⟨(b, u, i) :: n, by rw [named, hm1, ok_bind, nameOf_of g2, ok_bind, hn']; rfl⟩

/-- C45: The arguments can be made if the aliases that are given can be used, are different, and cannot be confused with
    the generated ones (`ext` and a number), or are given for all attributes. -/
theorem c45_fetch_args_ok {r : FetchRequest} (hr : Made r)
    (hn : ∀ u i a, r.requested.get? u = some i → i.alias = some a → Nameable a)
    (hd : ∀ u v i j a, r.requested.get? u = some i → r.requested.get? v = some j → i.alias = some a → j.alias = some a → u = v)
    (he : (∀ u i, r.requested.get? u = some i → i.alias ≠ none) ∨
      ∀ u i n, r.requested.get? u = some i → i.alias ≠ some (t!"ext" ++ natToStr n)) :
    ∃ args, r.getExtensionArgs = .ok args := by
  have hreq : ∀ x ∈ r.requested, r.requested.get? x.1 = some x.2 := fun x hx => Dict.get?_of_mem _ hr.wf _ _ hx
  obtain ⟨n, h⟩ := named_ex [] r.requested (by simpa using hr.wf) {} good_empty (by intro w x hx; simp [Dict.get?] at hx)
    (fun x hx a ha => hn x.1 x.2 a (hreq x (by simpa using hx)) ha)
    (fun x hx y hy a ha hb => hd x.1 y.1 x.2 y.2 a (hreq x (by simpa using hx)) (hreq y (by simpa using hy)) ha hb)
    (he.elim (fun he => .inl fun x hx => he x.1 x.2 (hreq x (by simpa using hx)))
      (fun he => .inr fun x hx n => he x.1 x.2 n (hreq x (by simpa using hx))))
  exact ⟨_, by rw [FetchRequest.getExtensionArgs, h]; rfl⟩

theorem asks_same {q args : Dict Str Str} {name : Str → Str} {r : FetchRequest} (h : Asks args name r) (hs : Dict.Same q args) :
    Asks q name r := fun k v => by rw [hs k]; exact h k v

/-- C45: A fetch request can be read back: every type, count and requirement, and the alias that is in the arguments. -/
theorem c45_fetch_round_trip {X : ExtraDigits} (hX : X 'u' = none) {r : FetchRequest} (hr : Made r) {args : Dict Str Str}
    (h : r.getExtensionArgs = .ok args) (hne : ∀ u i, r.requested.get? u = some i → i.alias ≠ some [])
    (hc : ∀ u i, r.requested.get? u = some i → Countable i.count) (q : Dict Str Str) (hq : Dict.WF q)
    (hs : Dict.Same q args) :
    ∃ (name : Str → Str) (r' : FetchRequest), FetchRequest.parseExtensionArgs X {} q = .ok r' ∧ r'.updateUrl = none ∧
      (∀ u i a, r.requested.get? u = some i → i.alias = some a → name u = a) ∧
      ∀ u, r'.requested.get? u = (r.requested.get? u).map (fun i => { i with alias := some (name u) }) := by
  obtain ⟨name, -, h2, h3, h4⟩ := fetch_asks hr h
  have hne' : ∀ u, (r.requested.get? u).isSome = true → name u ≠ [] := by
    intro u hu
    obtain ⟨i, hi⟩ := Option.isSome_iff_exists.1 hu
    cases hal : i.alias with
    | some a => rw [(h3 u i hi).1 a hal]; intro e; subst e; exact hne u i hi hal
    | none => obtain ⟨j, hj⟩ := (h3 u i hi).2 hal; rw [hj]; simp
  obtain ⟨r', g1, g2, -, g3⟩ := asks_parse hX hq hr h2 hne' hc (asks_same h4 hs)
  exact ⟨name, r', g1, g2, fun u i a hi ha => (h3 u i hi).1 a ha, g3⟩

end Props
