import Verif.Lemmas.Sort
import Verif.Model.Discover
import Verif.Spec.Yadis
/-! # Lemmas about the orders of services and about XRIs -/

namespace Discover
open Py Xml Spec

theorem bestMatch_rank (preferred types : List Str) : Rank preferred types (bestMatch preferred types) := by
  induction preferred with
  | nil => exact ⟨by simp, .inr rfl⟩
  | cons t ts ih =>
    rw [bestMatch]
    split
    · next h =>
      rw [List.contains_iff_mem] at h
      exact ⟨by simp, .inl ⟨t, rfl, h⟩⟩
    · next h =>
      rw [List.contains_iff_mem] at h
      refine ⟨?_, ?_⟩
      · intro i hi u hu
        cases i with
        | zero => simp at hu; exact hu ▸ h
        | succ i => exact ih.1 i (by omega) u (by simpa using hu)
      · rcases ih.2 with ⟨u, h1, h2⟩ | h1
        · exact .inl ⟨u, by simpa using h1, h2⟩
        · exact .inr (by simp [h1])

theorem rank_unique {preferred types : List Str} {a b : Nat} (ha : Rank preferred types a) (hb : Rank preferred types b) :
    a = b := by
  rcases Nat.lt_trichotomy a b with h | h | h
  · rcases ha.2 with ⟨t, h1, h2⟩ | h1
    · exact absurd h2 (hb.1 a h t h1)
    · rcases hb.2 with ⟨t, h3, -⟩ | h3
      · rw [List.getElem?_eq_none (by omega)] at h3; simp at h3
      · omega
  · exact h
  · rcases hb.2 with ⟨t, h1, h2⟩ | h1
    · exact absurd h2 (ha.1 b h t h1)
    · rcases ha.2 with ⟨t, h3, -⟩ | h3
      · rw [List.getElem?_eq_none (by omega)] at h3; simp at h3
      · omega

theorem rank_iff {preferred types : List Str} {k : Nat} : Rank preferred types k ↔ bestMatch preferred types = k :=
  ⟨fun h => rank_unique (bestMatch_rank preferred types) h, fun h => h ▸ bestMatch_rank preferred types⟩

/-- services in order of rank -/
def rankLe (preferred : List Str) (a b : Endpoint) : Bool := bestMatch preferred a.typeUris ≤ bestMatch preferred b.typeUris

theorem map_insert (preferred : List Str) (i : Nat) (x : Endpoint) (t : List ((Nat × Nat) × Endpoint))
    (h : ∀ y ∈ t, y.1.1 = bestMatch preferred y.2.typeUris ∧ i < y.1.2) :
    (insertBy (fun a b => keyLe a.1 b.1) ((bestMatch preferred x.typeUris, i), x) t).map (·.2) =
    insertBy (rankLe preferred) x (t.map (·.2)) := by
  induction t with
  | nil => rfl
  | cons y r ih =>
    have hy := h y (by simp)
    rw [List.map_cons, insertBy, insertBy]
    have : keyLe (bestMatch preferred x.typeUris, i) y.1 = rankLe preferred x y.2 := by
      rw [keyLe, rankLe, hy.1]
      have := hy.2
      rw [Bool.eq_iff_iff]
      simp only [Bool.or_eq_true, Bool.and_eq_true, decide_eq_true_eq]
      omega
    rw [this]
    split
    · simp
    · rw [List.map_cons, ih fun z hz => h z (by simp [hz])]

theorem map_sort (preferred : List Str) (i : Nat) (services : List Endpoint) :
    (sortBy (fun a b => keyLe a.1 b.1)
      ((enumFrom i services).map fun p => ((bestMatch preferred p.2.typeUris, p.1), p.2))).map (·.2) =
    sortBy (rankLe preferred) services := by
  induction services generalizing i with
  | nil => rfl
  | cons x r ih =>
    rw [enumFrom, List.map_cons, sortBy, sortBy, map_insert, ih]
    intro y hy
    rw [mem_sortBy] at hy
    obtain ⟨p, hp, rfl⟩ := List.mem_map.1 hy
    refine ⟨rfl, ?_⟩
    clear ih hy
    suffices ∀ j, p ∈ enumFrom j r → j ≤ p.1 from this _ hp
    clear hp
    intro j
    induction r generalizing j with
    | nil => simp [enumFrom]
    | cons z r ih =>
      rw [enumFrom, List.mem_cons]
      rintro (rfl | h)
      · exact Nat.le_refl _
      · have := ih _ h; omega

theorem arrangeByType_eq (services : List Endpoint) (preferred : List Str) :
    arrangeByType services preferred = sortBy (rankLe preferred) services := map_sort preferred 0 services

theorem rankLe_total (preferred : List Str) (a b : Endpoint) : rankLe preferred a b = true ∨ rankLe preferred b a = true := by
  simp [rankLe]; omega

theorem rankLe_trans (preferred : List Str) (a b c : Endpoint) (h : rankLe preferred a b = true)
    (h' : rankLe preferred b c = true) : rankLe preferred a c = true := by
  simp [rankLe] at *; omega

end Discover

namespace Etxrd
open Py Xml Spec

theorem getPriority_iff (X : ExtraDigits) (e : Elem) (n : Nat) : Priority X e n ↔ getPriority X e = some n := by
  rw [Priority, getPriority, getPriorityStrict]
  cases e.get t!"priority" with
  | none => simp
  | some s =>
    simp only [Option.some.injEq, exists_eq_left']
    cases parseInt X s with
    | error x => simp
    | ok m =>
      simp only [Py.ok_bind, Except.ok.injEq]
      by_cases h : 0 ≤ m
      · simp [h]; omega
      · simp [h]; omega

theorem samePriority_iff (X : ExtraDigits) (a b : Elem) : SamePriority X a b ↔ getPriority X a = getPriority X b := by
  simp only [SamePriority, getPriority_iff]
  constructor
  · intro h
    cases ha : getPriority X a with
    | some n => exact ((h n).1 ha).symm
    | none =>
      cases hb : getPriority X b with
      | none => rfl
      | some n => rw [(h n).2 hb] at ha; simp at ha
  · intro h n; rw [h]

theorem mayPrecede_iff (X : ExtraDigits) (a b : Elem) :
    MayPrecede X a b ↔ prioLe (getPriority X a) (getPriority X b) = true := by
  simp only [MayPrecede, getPriority_iff]
  cases ha : getPriority X a <;> cases hb : getPriority X b <;> simp [prioLe]

/-- elements in order of priority -/
def elemLe (X : ExtraDigits) (a b : Elem) : Bool := prioLe (getPriority X a) (getPriority X b)

theorem prioSort_eq (X : ExtraDigits) (shuffle : List Elem → List Elem) (l : List Elem) :
    prioSort X shuffle l = sortBy (elemLe X) (shuffle l) := by
  rw [prioSort, sortBy_map, List.map_map]
  have : (fun a b => prioLe (getPriority X a) (getPriority X b)) = elemLe X := rfl
  simp [Function.comp_def, this]

theorem elemLe_total (X : ExtraDigits) (a b : Elem) : elemLe X a b = true ∨ elemLe X b a = true := by
  rw [elemLe, elemLe]
  cases getPriority X a <;> cases getPriority X b <;> simp [prioLe]; omega

theorem elemLe_trans (X : ExtraDigits) (a b c : Elem) (h : elemLe X a b = true) (h' : elemLe X b c = true) :
    elemLe X a c = true := by
  rw [elemLe] at *
  revert h h'
  cases getPriority X a <;> cases getPriority X b <;> cases getPriority X c <;> simp [prioLe]; omega

/-! ## Chains of CanonicalIDs -/

/-- the second text extends the first by one segment -/
def Extends (parent child : Str) : Prop := ∃ seg, '!' ∉ seg ∧ child = parent ++ '!' :: seg

theorem parentOf_iff (c p : Str) : Xri.parentOf c = .ok p ↔ Extends p c := by
  rw [Xri.parentOf]
  constructor
  · intro h
    split at h
    · next q hq =>
      simp only [Except.ok.injEq] at h
      subst h
      obtain ⟨h1, h2⟩ := rcut_eq_some _ _ _ _ hq
      exact ⟨_, h2, h1⟩
    · simp at h
  · rintro ⟨seg, h1, rfl⟩
    rw [rcut_append _ _ _ h1]

theorem parentOf_error {c : Str} {e : PyErr} (h : Xri.parentOf c = .error e) : e = .valueError := by
  rw [Xri.parentOf] at h
  split at h <;> simp at h
  exact h.symm

theorem delegates_append (root : Str) (l : List Str) (x : Str) :
    Delegates root (l ++ [x]) ↔ Delegates root l ∧ Extends (l.getLast?.getD root) x := by
  induction l generalizing root with
  | nil => simp [Delegates, Extends]
  | cons a r ih =>
    rw [List.cons_append, Delegates, ih, Delegates]
    cases r with
    | nil => simp [and_assoc]
    | cons b r => simp [and_assoc, List.getLast?_cons]

theorem full_eq (x : Str) : Xri.XRI x = t!"xri://" ++ bare x := by
  rw [Xri.XRI, bare, startsWith]
  split
  · next h =>
    obtain ⟨r, hr⟩ := List.isPrefixOf_iff_prefix.1 h
    subst hr
    rfl
  · rfl

/-- the identifier of an XRD, to compare -/
def idOf (U : Url.Uni) (text : Str) : Str := Url.lower U (t!"xri://" ++ bare text)

theorem findtext_eq (e : Elem) (tag : Str) : e.findtext tag = firstText e tag := by
  rw [Elem.findtext, firstText, Elem.findall, List.head?_filter]

/-- going up from `c` through these ends at `top` -/
def Up : Str → List Str → Str → Prop
  | c, [], top => c = top
  | c, p :: ps, top => Extends p c ∧ Up p ps top

theorem climb_iff (U : Url.Uni) (c top : Str) (rest : List Elem) :
    climb U c rest = .ok top ↔
    ∃ texts, rest.mapM (firstText · canonicalIDTag) = some texts ∧ Up c (texts.map (idOf U)) top := by
  induction rest generalizing c with
  | nil => simp [climb, Up]
  | cons x r ih =>
    rw [climb, findtext_eq, List.mapM_cons]
    simp only [bind_eq_ok]
    constructor
    · rintro ⟨p, hp, q, hq, h⟩
      cases ht : firstText x canonicalIDTag with
      | none => rw [ht] at hq; simp [xriOf] at hq
      | some t =>
        rw [ht] at hq
        simp only [xriOf, Except.ok.injEq] at hq
        by_cases he : p ≠ Url.lower U q
        · rw [if_pos he] at h; simp at h
        · rw [if_neg he] at h
          simp only [ne_eq, Decidable.not_not] at he
          obtain ⟨ts, h1, h2⟩ := (ih p).1 h
          have hid : idOf U t = p := by rw [idOf, ← full_eq, hq, he]
          refine ⟨t :: ts, by simp [h1], ?_⟩
          rw [List.map_cons, Up, hid]
          exact ⟨(parentOf_iff _ _).1 hp, h2⟩
    · rintro ⟨texts, h1, h2⟩
      cases ht : firstText x canonicalIDTag with
      | none => rw [ht] at h1; simp at h1
      | some t =>
        rw [ht] at h1
        simp only [Option.pure_def, Option.bind_eq_bind, Option.bind_some, Option.bind_eq_some_iff, Option.some.injEq] at h1
        obtain ⟨ts, h1, rfl⟩ := h1
        rw [List.map_cons, Up] at h2
        refine ⟨idOf U t, (parentOf_iff _ _).2 h2.1, Xri.XRI t, rfl, ?_⟩
        rw [if_neg (by rw [idOf, full_eq]; simp)]
        exact (ih _).2 ⟨ts, h1, h2.2⟩

theorem up_iff (root c : Str) (ids : List Str) :
    (∃ top, Up c ids top ∧ Extends root top) ↔ Delegates root (c :: ids).reverse := by
  induction ids generalizing c with
  | nil => simp [Up, Delegates, Extends]
  | cons p ps ih =>
    rw [List.reverse_cons, delegates_append, ← ih p]
    have : (p :: ps).reverse.getLast?.getD root = p := by simp
    rw [this]
    simp only [Up]
    constructor
    · rintro ⟨top, ⟨h1, h2⟩, h3⟩; exact ⟨⟨top, h2, h3⟩, h1⟩
    · rintro ⟨⟨top, h2, h3⟩, h1⟩; exact ⟨top, ⟨h1, h2⟩, h3⟩

/-! ## The root authority -/

theorem head_splitOn (c : Char) (s : Str) : ∃ a r, (splitOn c s).headD [] = a ∧ s = a ++ r ∧ c ∉ a ∧ (r = [] ∨ r.head? = some c) := by
  cases h : cut c s with
  | none =>
    have := (cut_eq_none_iff c s).1 h
    exact ⟨s, [], by simp [splitOn_not_mem c s this], by simp, this, .inl rfl⟩
  | some p =>
    obtain ⟨h1, h2⟩ := (cut_eq_some_iff c s p.1 p.2).1 h
    refine ⟨p.1, c :: p.2, ?_, h1, h2, .inr rfl⟩
    rw [h1, splitOn_append c _ _ h2]; rfl

/-- a text has one beginning without `c` up to `c` or its end -/
theorem head_unique {P : Char → Prop} {a a' r r' : Str} (h : a ++ r = a' ++ r') (ha : ∀ c, P c → c ∉ a)
    (ha' : ∀ c, P c → c ∉ a') (hr : r = [] ∨ ∃ c, P c ∧ r.head? = some c) (hr' : r' = [] ∨ ∃ c, P c ∧ r'.head? = some c) :
    a = a' := by
  rcases List.append_eq_append_iff.1 h with ⟨x, h1, h2⟩ | ⟨x, h1, h2⟩
  · cases x with
    | nil => simp [h1]
    | cons d x =>
      rcases hr with rfl | ⟨c, hc, hh⟩
      · simp at h2
      · rw [h2] at hh
        simp only [List.cons_append, List.head?_cons, Option.some.injEq] at hh
        exact absurd (h1 ▸ by simp [hh]) (ha' c hc)
  · cases x with
    | nil => simp [h1]
    | cons d x =>
      rcases hr' with rfl | ⟨c, hc, hh⟩
      · simp at h2
      · rw [h2] at hh
        simp only [List.cons_append, List.head?_cons, Option.some.injEq] at hh
        exact absurd (h1 ▸ by simp [hh]) (ha c hc)

/-- the head of the parts between `!` and `*` -/
theorem head_parts (s : Str) : ∃ a r, ((splitOn '!' s).flatMap (splitOn '*')).headD [] = a ∧ s = a ++ r ∧ '!' ∉ a ∧ '*' ∉ a ∧
    (r = [] ∨ r.head? = some '!' ∨ r.head? = some '*') := by
  obtain ⟨b, t, h1, h2, h3, h4⟩ := head_splitOn '!' s
  obtain ⟨a, u, g1, g2, g3, g4⟩ := head_splitOn '*' b
  refine ⟨a, u ++ t, ?_, by rw [h2, g2]; simp, fun h => h3 (g2 ▸ by simp [h]), g3, ?_⟩
  · cases hs : splitOn '!' s with
    | nil => exact absurd hs (splitOn_ne_nil _ _)
    | cons x xs =>
      rw [hs] at h1
      simp only [List.headD_cons] at h1
      rw [List.flatMap_cons, h1]
      cases hb : splitOn '*' b with
      | nil => exact absurd hb (splitOn_ne_nil _ _)
      | cons y ys => rw [hb] at g1; simpa using g1
  · rcases g4 with rfl | g4
    · rcases h4 with rfl | h4
      · exact .inl rfl
      · exact .inr (.inl (by simpa using h4))
    · exact .inr (.inr (by cases u <;> simp_all))

theorem rootOf_unique_aux {c : Char} (h : c ∈ t!"!=@+$") : Xri.authorities.contains c = true ∧ c ≠ '(' := by
  simp only [List.mem_cons, List.not_mem_nil, or_false] at h
  rcases h with rfl | rfl | rfl | rfl | rfl <;> decide

theorem mem_authorities {c : Char} : Xri.authorities.contains c = true ↔ c ∈ t!"!=@+$" ∨ c = '(' := by
  rw [List.contains_iff_mem]
  simp only [Xri.authorities, List.mem_cons, List.not_mem_nil, or_false]
  grind

theorem rootAuthority_iff (x r : Str) :
    Xri.rootAuthority x = .ok r ↔ ∃ root, RootOf (bare x) root ∧ r = t!"xri://" ++ root := by
  have hb : (if startsWith x t!"xri://" then x.drop 6 else x) = bare x := rfl
  rw [Xri.rootAuthority, hb]
  generalize bare x = n
  obtain ⟨a, rest, h1, h2, h3, h4⟩ := head_splitOn '/' n
  simp only [h1]
  have hbare : ∀ {y : Str}, '/' ∉ y → Xri.XRI y = t!"xri://" ++ y := by
    intro y hy
    rw [full_eq, bare, if_neg]
    intro h
    obtain ⟨z, hz⟩ := List.isPrefixOf_iff_prefix.1 h
    exact hy (hz ▸ by simp)
  cases a with
  | nil =>
    simp only [reduceCtorEq, false_iff, not_exists, not_and]
    intro root hr
    have hn : n = [] ∨ n.head? = some '/' := by rw [h2]; exact h4
    exfalso
    rcases hr with ⟨ref, u, -, -, hn', -⟩ | ⟨c, u, hc, hn', -⟩ | ⟨u, -, -, -, c, hc, hc'⟩
    · rw [hn'] at hn; simp at hn
    · rw [hn'] at hn
      simp only [List.cons_ne_nil, List.head?_cons, Option.some.injEq, false_or] at hn
      subst hn; exact absurd hc (by decide)
    · rcases hn with rfl | hn
      · simp at hc
      · rw [hn] at hc; simp only [Option.some.injEq] at hc; subst hc; exact absurd hc' (by decide)
  | cons c cs =>
    have hnc : n = c :: (cs ++ rest) := by rw [h2]; rfl
    have hcs : c ≠ '/' := fun h => h3 (by simp [h])
    by_cases hp : c = '('
    · subst hp
      simp only [if_true]
      cases hcut : cut ')' ('(' :: cs) with
      | none =>
        have hno := (cut_eq_none_iff _ _).1 hcut
        simp only [reduceCtorEq, false_iff, not_exists, not_and]
        intro root hr
        exfalso
        rcases hr with ⟨ref, u, g1, g2, hn', -⟩ | ⟨d, u, hd, hn', -⟩ | ⟨u, -, -, -, d, hd, hd'⟩
        · rw [h2] at hn'
          rcases List.append_eq_append_iff.1 (hn'.trans (List.append_assoc _ _ _) : _ = (t!"(" ++ ref) ++ (t!")" ++ u)) with ⟨y, e1, e2⟩ | ⟨y, e1, e2⟩
          · rcases h4 with rfl | h4
            · simp at e2
            · cases y with
              | nil => rw [List.nil_append] at e2; rw [e2] at h4; simp at h4
              | cons z y =>
                rw [e2] at h4
                simp only [List.cons_append, List.head?_cons, Option.some.injEq] at h4
                have : z ∈ t!"(" ++ ref := e1 ▸ by simp
                subst h4
                simp only [List.cons_append, List.nil_append, List.mem_cons] at this
                rcases this with h | h
                · exact absurd h (by decide)
                · exact g1 h
          · cases y with
            | nil =>
              rcases h4 with rfl | h4
              · simp at e2
              · rw [List.nil_append] at e2; rw [← e2] at h4; simp at h4
            | cons z y =>
              simp only [List.cons_append, List.nil_append, List.cons.injEq] at e2
              exact hno (e1 ▸ by simp [← e2.1])
        · rw [hnc] at hn'; simp only [List.cons.injEq] at hn'; rw [← hn'.1] at hd; exact absurd hd (by decide)
        · rw [hnc] at hd; simp only [List.head?_cons, Option.some.injEq] at hd; subst hd; exact absurd hd' (by decide)
      | some q =>
        obtain ⟨p, w⟩ := q
        obtain ⟨e1, e2⟩ := (cut_eq_some_iff _ _ _ _).1 hcut
        cases p with
        | nil => simp at e1
        | cons d ref =>
          simp only [List.cons_append, List.cons.injEq] at e1
          obtain ⟨rfl, e1⟩ := e1
          have hs : '/' ∉ ref := fun h => h3 (by simp [e1, h])
          have hr' : ')' ∉ ref := fun h => e2 (by simp [h])
          simp only [Except.ok.injEq]
          rw [hbare (y := '(' :: ref ++ t!")") (by simp [hs])]
          constructor
          · rintro rfl
            exact ⟨_, .inl ⟨ref, w ++ rest, hs, hr', by rw [hnc, e1]; simp, rfl⟩, by simp⟩
          · rintro ⟨root, hr, rfl⟩
            rcases hr with ⟨ref', u, g1, g2, hn', rfl⟩ | ⟨d, u, hd, hn', -⟩ | ⟨u, -, -, -, d, hd, hd'⟩
            · have : ref = ref' := by
                rw [hnc, e1] at hn'
                simp only [List.append_assoc, List.cons_append, List.nil_append, List.cons.injEq, true_and] at hn'
                exact head_unique (P := (· = ')')) hn' (by rintro _ rfl; exact hr') (by rintro _ rfl; exact g2)
                  (.inr ⟨')', rfl, rfl⟩) (.inr ⟨')', rfl, rfl⟩)
              subst this; simp
            · rw [hnc] at hn'; simp only [List.cons.injEq] at hn'; rw [← hn'.1] at hd; exact absurd hd (by decide)
            · rw [hnc] at hd; simp only [List.head?_cons, Option.some.injEq] at hd; subst hd; exact absurd hd' (by decide)
    · simp only [if_neg hp]
      by_cases ha : Xri.authorities.contains c = true
      · simp only [if_pos ha]
        have hc : c ∈ t!"!=@+$" := (mem_authorities.1 ha).resolve_right hp
        simp only [Except.ok.injEq]
        rw [hbare (y := [c]) (by simp [Ne.symm hcs])]
        constructor
        · rintro rfl; exact ⟨[c], .inr (.inl ⟨c, _, hc, hnc, rfl⟩), rfl⟩
        · rintro ⟨root, hr, rfl⟩
          rcases hr with ⟨ref, u, g1, g2, hn', rfl⟩ | ⟨d, u, hd, hn', rfl⟩ | ⟨u, -, -, -, d, hd, hd'⟩
          · rw [hnc] at hn'; simp at hn'; exact absurd hn'.1 hp
          · rw [hnc] at hn'; simp at hn'; rw [hn'.1]
          · rw [hnc] at hd; simp only [List.head?_cons, Option.some.injEq] at hd; subst hd
            exact absurd (by simp only [List.mem_cons, List.not_mem_nil, or_false] at hc ⊢; grind) hd'
      · simp only [if_neg ha]
        have hc : c ∉ t!"!=@+$" := fun h => ha (mem_authorities.2 (.inl h))
        obtain ⟨b, t, g1, g2, g3, g4, g5⟩ := head_parts (c :: cs)
        rw [g1]
        have hbs : '/' ∉ b := fun h => h3 (g2 ▸ by simp [h])
        simp only [Except.ok.injEq]
        rw [hbare hbs]
        have hnb : n = b ++ (t ++ rest) := by rw [h2, g2]; simp
        have hrest : t ++ rest = [] ∨ ∃ d ∈ t!"!*/", (t ++ rest).head? = some d := by
          cases t with
          | nil =>
            rcases h4 with rfl | h4
            · exact .inl rfl
            · exact .inr ⟨'/', by simp, by simpa using h4⟩
          | cons z t =>
            simp only [List.head?_cons, Option.some.injEq, reduceCtorEq, false_or] at g5
            exact .inr ⟨z, by rcases g5 with rfl | rfl <;> simp, rfl⟩
        have hno : ∀ d ∈ t!"!*/", d ∉ b := by
          intro d hd
          simp only [List.mem_cons, List.not_mem_nil, or_false] at hd
          rcases hd with rfl | rfl | rfl <;> assumption
        constructor
        · rintro rfl
          refine ⟨b, .inr (.inr ⟨t ++ rest, hnb, hno, hrest, c, by rw [hnc]; rfl, ?_⟩), rfl⟩
          intro h
          simp only [List.mem_cons, List.not_mem_nil, or_false] at h hc
          grind
        · rintro ⟨root, hr, rfl⟩
          rcases hr with ⟨ref, u, -, -, hn', rfl⟩ | ⟨d, u, hd, hn', rfl⟩ | ⟨u, hn', k1, k2, -⟩
          · rw [hnc] at hn'; simp at hn'; exact absurd hn'.1 hp
          · rw [hnc] at hn'; simp at hn'; rw [← hn'.1] at hd; exact absurd hd hc
          · have : b = root := head_unique (P := (· ∈ t!"!*/")) (hnb.symm.trans hn') hno k1 hrest k2
            rw [this]

theorem mapM_some_iff {α β : Type} {f : α → Option β} {l : List α} {ts : List β} :
    l.mapM f = some ts ↔ l.map f = ts.map some := by
  induction l generalizing ts with
  | nil => cases ts <;> simp
  | cons x r ih =>
    rw [List.mapM_cons]
    cases ts with
    | nil => cases f x <;> cases List.mapM f r <;> simp
    | cons t ts =>
      cases hx : f x with
      | none => simp [hx]
      | some y =>
        simp only [Option.pure_def, Option.bind_eq_bind, Option.bind_some, Option.bind_eq_some_iff, Option.some.injEq, List.cons.injEq,
          List.map_cons, hx]
        constructor
        · rintro ⟨a, h1, rfl, rfl⟩; exact ⟨rfl, ih.1 h1⟩
        · rintro ⟨rfl, h⟩; exact ⟨ts, ih.2 h, rfl, rfl⟩

theorem verifyCanonicalID_iff (U : Url.Uni) (iname c cid : Str) (rest : List Elem) :
    verifyCanonicalID U iname c rest = .ok (some cid) ↔
    ∃ root ts, RootOf (bare iname) root ∧ rest.mapM (firstText · canonicalIDTag) = some ts ∧
      Delegates (t!"xri://" ++ root) (Url.lower U c :: ts.map (idOf U)).reverse ∧ cid = c := by
  simp only [verifyCanonicalID, bind_eq_ok, climb_iff, rootAuthority_iff]
  constructor
  · rintro ⟨top, ⟨ts, h1, h2⟩, r, ⟨root, h3, rfl⟩, b, h4, h5⟩
    rw [Xri.providerIsAuthoritative] at h4
    obtain ⟨p, h6, h7⟩ := bind_eq_ok.1 h4
    simp only [pure_eq_ok, Except.ok.injEq] at h7
    subst h7
    by_cases hp : p = t!"xri://" ++ root
    · rw [if_pos (by simpa using hp)] at h5
      simp only [pure_eq_ok, Except.ok.injEq, Option.some.injEq] at h5
      refine ⟨root, ts, h3, h1, (up_iff _ _ _).1 ⟨top, h2, hp ▸ (parentOf_iff _ _).1 h6⟩, h5.symm⟩
    · rw [if_neg (by simpa using hp)] at h5; simp at h5
  · rintro ⟨root, ts, h1, h2, h3, rfl⟩
    obtain ⟨top, h4, h5⟩ := (up_iff _ _ _).2 h3
    refine ⟨top, ⟨ts, h2, h4⟩, _, ⟨root, h1, rfl⟩, true, ?_, by simp⟩
    rw [Xri.providerIsAuthoritative, (parentOf_iff _ _).2 h5]
    simp

end Etxrd
