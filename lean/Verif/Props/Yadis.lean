import Verif.Lemmas.Yadis
import Verif.Props.TrustRoot
/-! # C43, C44, C49: the orders of services, and CanonicalIDs -/

namespace Props
open Py Xml Spec Discover
open scoped Classical

/-! ## C43: services by type -/

/-- The services are rearranged: ordered by the first preferred type they have, those without any last, and in the order
    given among equals. -/
theorem c43_arrangeByType (services : List Endpoint) (preferred : List Str) :
    (arrangeByType services preferred).Perm services ∧
    (arrangeByType services preferred).Pairwise (fun a b => ∃ i j, Rank preferred a.typeUris i ∧
      Rank preferred b.typeUris j ∧ i ≤ j) ∧
    ∀ k, (arrangeByType services preferred).filter (fun s => Rank preferred s.typeUris k) =
      services.filter fun s => Rank preferred s.typeUris k := by
  rw [arrangeByType_eq]
  refine ⟨perm_sortBy _ _, ?_, fun k => filter_sortBy _ _ _ ?_⟩
  · refine (pairwise_sortBy _ (rankLe_total _) (rankLe_trans _) services).imp fun {a b} h => ?_
    exact ⟨_, _, bestMatch_rank _ _, bestMatch_rank _ _, by simpa [rankLe] using h⟩
  · intro x y hx hy
    simp only [decide_eq_true_eq, rank_iff] at hx hy
    simp [rankLe, hx, hy]

/-- `Rank` is what it is meant to be. -/
theorem c43_rank (preferred types : List Str) : ∃ k, Rank preferred types k ∧ (∀ k', Rank preferred types k' → k' = k) ∧
    k ≤ preferred.length ∧ (k = preferred.length ↔ ∀ t ∈ preferred, t ∉ types) := by
  have hr := bestMatch_rank preferred types
  refine ⟨_, hr, fun k' h => rank_unique h hr, ?_, ?_⟩
  · rcases hr.2 with ⟨t, h, -⟩ | h
    · exact Nat.le_of_lt (List.getElem?_eq_some_iff.1 h).1
    · exact Nat.le_of_eq h
  · constructor
    · intro h t ht
      obtain ⟨i, hi, rfl⟩ := List.getElem_of_mem ht
      exact hr.1 i (by omega) _ (List.getElem?_eq_getElem hi)
    · intro h
      rcases hr.2 with ⟨t, h1, h2⟩ | h1
      · exact absurd h2 (h t (List.mem_of_getElem? h1))
      · exact h1

/-- What discovery hands out: the services of type OP identifier first, then the others, in the order found. -/
theorem c43_getOPOrUserServices (services : List Endpoint) :
    getOPOrUserServices services =
      services.filter (fun s => OPENID_IDP_2_0_TYPE ∈ s.typeUris) ++
      services.filter fun s => OPENID_IDP_2_0_TYPE ∉ s.typeUris := by
  have key : arrangeByType services [OPENID_IDP_2_0_TYPE] =
      services.filter (fun s => OPENID_IDP_2_0_TYPE ∈ s.typeUris) ++
      services.filter fun s => OPENID_IDP_2_0_TYPE ∉ s.typeUris := by
    rw [arrangeByType_eq]
    have hb : ∀ s : Endpoint, bestMatch [OPENID_IDP_2_0_TYPE] s.typeUris = if OPENID_IDP_2_0_TYPE ∈ s.typeUris then 0 else 1 := by
      intro s
      simp only [bestMatch, List.contains_iff_mem]
    induction services with
    | nil => rfl
    | cons x r ih =>
      rw [sortBy, ih]
      by_cases hx : OPENID_IDP_2_0_TYPE ∈ x.typeUris
      · rw [insertBy_le]
        · simp [hx]
        · intro y _; simp [rankLe, hb, hx]
      · have : ∀ l m : List Endpoint, (∀ y ∈ l, OPENID_IDP_2_0_TYPE ∈ y.typeUris) → (∀ y ∈ m, OPENID_IDP_2_0_TYPE ∉ y.typeUris) →
            insertBy (rankLe [OPENID_IDP_2_0_TYPE]) x (l ++ m) = l ++ x :: m := by
          intro l m hl hm
          induction l with
          | nil =>
            rw [List.nil_append, insertBy_le, List.nil_append]
            intro y hy; simp [rankLe, hb, hx, hm y hy]
          | cons y l ih =>
            rw [List.cons_append, insertBy, if_neg, ih fun z hz => hl z (by simp [hz])]
            · rfl
            · simp [rankLe, hb, hx, hl y (by simp)]
        rw [this _ _ (by simp) (by simp)]
        simp [hx]
  rw [getOPOrUserServices, key]
  split
  · next h =>
    have hn : services = [] := by
      rw [List.isEmpty_iff] at h
      rw [← key] at h
      exact List.length_eq_zero_iff.1 (by rw [← (c43_arrangeByType services [OPENID_IDP_2_0_TYPE]).1.length_eq, h]; rfl)
    subst hn; rfl
  · rfl

def svc0 (url : Str) (types : List Str) : Endpoint := ⟨none, url, types, none, none, true, none⟩

/-- The documentation says that without OP identifier services the rest is sorted by version, newest first.  It is not: the
    rest always comes in the order found. -/
theorem c43_not_by_version : ∃ a b : Endpoint, OPENID_1_1_TYPE ∈ a.typeUris ∧ OPENID_2_0_TYPE ∈ b.typeUris ∧
    OPENID_IDP_2_0_TYPE ∉ a.typeUris ∧ OPENID_IDP_2_0_TYPE ∉ b.typeUris ∧
    getOPOrUserServices [a, b] = [a, b] ∧ arrangeByType [a, b] openidTypeUris = [b, a] :=
  ⟨svc0 t!"http://a/" [OPENID_1_1_TYPE], svc0 t!"http://b/" [OPENID_2_0_TYPE], by decide, by decide, by decide, by decide,
    by decide +kernel, by decide +kernel⟩

-- four services, of which the first has no preferred type, and two are of the same
example : (arrangeByType [svc0 t!"a" [t!"x"], svc0 t!"b" [OPENID_1_1_TYPE], svc0 t!"c" [OPENID_1_1_TYPE, OPENID_2_0_TYPE],
    svc0 t!"d" [OPENID_1_1_TYPE]] [OPENID_2_0_TYPE, OPENID_1_1_TYPE]).map (·.serverUrl) = [t!"c", t!"b", t!"d", t!"a"] := by
  decide +kernel

example : (getOPOrUserServices [svc0 t!"a" [OPENID_1_0_TYPE], svc0 t!"b" [OPENID_IDP_2_0_TYPE], svc0 t!"c" [OPENID_2_0_TYPE],
    svc0 t!"d" [OPENID_2_0_TYPE, OPENID_IDP_2_0_TYPE]]).map (·.serverUrl) = [t!"b", t!"d", t!"a", t!"c"] := by
  decide +kernel

/-! ## C44: priorities -/

/-- Whatever the shuffle, the elements come in order of priority, those without a valid one last, and in the shuffled order
    among equals. -/
theorem c44_prioSort (X : ExtraDigits) (shuffle : List Elem → List Elem) (hs : ∀ l, (shuffle l).Perm l) (l : List Elem) :
    (Etxrd.prioSort X shuffle l).Perm l ∧
    (Etxrd.prioSort X shuffle l).Pairwise (MayPrecede X) ∧
    ∀ e, (Etxrd.prioSort X shuffle l).filter (fun x => SamePriority X e x) = (shuffle l).filter fun x => SamePriority X e x := by
  rw [Etxrd.prioSort_eq]
  refine ⟨(perm_sortBy _ _).trans (hs l), ?_, fun e => filter_sortBy _ _ _ ?_⟩
  · exact (pairwise_sortBy _ (Etxrd.elemLe_total X) (Etxrd.elemLe_trans X) _).imp fun h => (Etxrd.mayPrecede_iff X _ _).2 h
  · intro x y hx hy
    simp only [decide_eq_true_eq, Etxrd.samePriority_iff] at hx hy
    rw [Etxrd.elemLe, ← hx, ← hy]
    cases Etxrd.getPriority X e <;> simp [Etxrd.prioLe]

/-- Every order of the elements by priority is the outcome of some shuffle. -/
theorem c44_every_order (X : ExtraDigits) (l out : List Elem) (hp : out.Perm l) (ho : out.Pairwise (MayPrecede X)) :
    ∃ shuffle, (∀ m, (shuffle m).Perm m) ∧ Etxrd.prioSort X shuffle l = out := by
  refine ⟨fun m => if m = l then out else m, fun m => ?_, ?_⟩
  · simp only
    split
    · next h => exact h ▸ hp
    · exact .refl _
  · rw [Etxrd.prioSort_eq]
    simp only [if_true]
    exact sortBy_sorted _ _ (ho.imp fun h => (Etxrd.mayPrecede_iff X _ _).1 h)

/-- `iterServices`: the services of the last XRD, by priority; an exception if there is no XRD. -/
theorem c44_iterServices (X : ExtraDigits) (shuffle : List Elem → List Elem) (hs : ∀ l, (shuffle l).Perm l) (root : Elem) :
    match (root.children.filter fun c => c.tag = t!"{xri://$xrd*($v*2.0)}XRD").getLast? with
    | none => Etxrd.iterServices X shuffle root = .error .xrdsError
    | some xrd => ∃ out, Etxrd.iterServices X shuffle root = .ok out ∧
      out.Perm (xrd.children.filter fun c => c.tag = t!"{xri://$xrd*($v*2.0)}Service") ∧ out.Pairwise (MayPrecede X) := by
  have ht : root.children.filter (fun c => c.tag = t!"{xri://$xrd*($v*2.0)}XRD") = root.findall Etxrd.xrdElemTag := rfl
  rw [ht, Etxrd.iterServices, Etxrd.getYadisXRD]
  cases (root.findall Etxrd.xrdElemTag).getLast? with
  | none => rfl
  | some xrd =>
    have := c44_prioSort X shuffle hs (xrd.findall Etxrd.serviceTag)
    exact ⟨_, rfl, this.1, this.2.1⟩

/-- `sortedURIs`: the texts of the URIs of a service, by priority. -/
theorem c44_sortedURIs (X : ExtraDigits) (shuffle : List Elem → List Elem) (hs : ∀ l, (shuffle l).Perm l) (service : Elem) :
    ∃ out : List Elem, Etxrd.sortedURIs X shuffle service = out.map (·.text) ∧
      out.Perm (service.children.filter fun c => c.tag = t!"{xri://$xrd*($v*2.0)}URI") ∧ out.Pairwise (MayPrecede X) := by
  have := c44_prioSort X shuffle hs (service.findall Etxrd.uriTag)
  exact ⟨_, rfl, this.1, this.2.1⟩

def prio0 (name : Str) (p : Option Str) : Elem :=
  .mk Etxrd.serviceTag ((p.map fun s => (t!"priority", s)).toList) (some name) []

-- priorities 10, none, 0, invalid, 10, negative
example : (Etxrd.prioSort (fun _ => none) List.reverse [prio0 t!"a" (some t!"10"), prio0 t!"b" none, prio0 t!"c" (some t!"0"),
    prio0 t!"d" (some t!"x"), prio0 t!"e" (some t!" 10 "), prio0 t!"f" (some t!"-1")]).map (·.text) =
    [some t!"c", some t!"e", some t!"a", some t!"f", some t!"d", some t!"b"] := by decide +kernel

example : ∀ l : List Elem, l.reverse.Perm l := List.reverse_perm

example : Priority (fun _ => none) (prio0 t!"e" (some t!" 10 ")) 10 ∧ ∀ n, ¬ Priority (fun _ => none) (prio0 t!"f" (some t!"-1")) n := by
  refine ⟨⟨t!" 10 ", rfl, by decide +kernel⟩, ?_⟩
  rintro n ⟨s, h1, h2⟩
  obtain rfl : t!"-1" = s := by simpa [prio0, Elem.get, Elem.attrs, Dict.get?] using h1
  have : parseInt (fun _ => none) t!"-1" = .ok (-1) := by decide +kernel
  rw [this] at h2
  simp at h2

/-! ## C49: CanonicalIDs -/

/-- the XRDs of a document, in order -/
def xrdsOf (root : Elem) : List Elem := root.children.filter fun c => c.tag = t!"{xri://$xrd*($v*2.0)}XRD"

def cidTag : Str := t!"{xri://$xrd*($v*2.0)}CanonicalID"

/-- A CanonicalID is returned exactly if all XRDs have one, each (the first given) extends that of the XRD before it by one
    segment, the first that of the root authority of the name, and it is that of the last XRD. -/
theorem c49_getCanonicalID (U : Url.Uni) (iname : Str) (root : Elem) (cid : Str) :
    Etxrd.getCanonicalID U iname root = .ok (some cid) ↔
    ∃ authority texts, RootOf (bare iname) authority ∧
      (xrdsOf root).mapM (firstText · cidTag) = some texts ∧
      Delegates (t!"xri://" ++ authority) (texts.map fun t => Url.lower U (t!"xri://" ++ bare t)) ∧
      ∃ last, texts.getLast? = some last ∧ cid = t!"xri://" ++ bare last := by
  have ht : ∀ r : Elem, xrdsOf r = r.findall Etxrd.xrdElemTag := fun _ => rfl
  rw [Etxrd.getCanonicalID, ht]
  have hrev : ∀ l, (root.findall Etxrd.xrdElemTag).reverse = l → root.findall Etxrd.xrdElemTag = l.reverse := by
    intro l h; rw [← h, List.reverse_reverse]
  cases hx : (root.findall Etxrd.xrdElemTag).reverse with
  | nil =>
    rw [hrev _ hx]
    simp only [Except.ok.injEq, reduceCtorEq, List.reverse_nil, false_iff]
    rintro ⟨a, texts, -, h, -, last, hl, -⟩
    simp at h; subst h; simp at hl
  | cons xrd rest =>
    rw [hrev _ hx, List.reverse_cons]
    have hmap : ∀ texts, (rest.reverse ++ [xrd]).mapM (firstText · cidTag) = some texts ↔
        ∃ last ts, firstText xrd cidTag = some last ∧ rest.mapM (firstText · cidTag) = some ts ∧ texts = ts.reverse ++ [last] := by
      intro texts
      rw [Etxrd.mapM_some_iff]
      constructor
      · intro h
        rw [List.map_append, List.map_reverse] at h
        have hl := congrArg List.reverse h
        simp only [List.reverse_append, List.map_cons, List.map_nil, List.reverse_cons, List.reverse_nil, List.nil_append,
          List.reverse_reverse, List.cons_append, ← List.map_reverse] at hl
        cases hr : texts.reverse with
        | nil => rw [hr] at hl; simp at hl
        | cons z zs =>
          rw [hr] at hl
          simp only [List.map_cons, List.cons.injEq] at hl
          refine ⟨z, zs, hl.1, Etxrd.mapM_some_iff.2 hl.2, ?_⟩
          rw [← List.reverse_reverse texts, hr]; simp
      · rintro ⟨last, ts, h1, h2, rfl⟩
        rw [Etxrd.mapM_some_iff] at h2
        simp [h1, h2]
    have hcid : ∀ text, firstText xrd cidTag = some text ↔ ∃ c cs, xrd.findall Etxrd.canonicalIDTag = c :: cs ∧ c.text.getD [] = text := by
      intro text
      rw [← Etxrd.findtext_eq, Elem.findtext]
      change ((xrd.findall Etxrd.canonicalIDTag).head?.map _ = _) ↔ _
      cases xrd.findall Etxrd.canonicalIDTag <;> simp
    have hcl : Etxrd.canonicalIDTag = cidTag := rfl
    simp only [hmap]
    cases hc : xrd.findall Etxrd.canonicalIDTag with
    | nil =>
      simp only [Except.ok.injEq, reduceCtorEq, false_iff]
      rintro ⟨a, texts, -, ⟨last, ts, h, -⟩, -⟩
      obtain ⟨c, cs, h, -⟩ := (hcid last).1 h
      rw [hc] at h; simp at h
    | cons c cs =>
      simp only [bind_eq_ok, Etxrd.verifyCanonicalID_iff]
      have hlast : ∀ last, firstText xrd cidTag = some last ↔ c.text.getD [] = last := by
        intro last
        rw [hcid]
        constructor
        · rintro ⟨c', cs', h, h'⟩; rw [hc] at h; simp only [List.cons.injEq] at h; rw [h.1]; exact h'
        · intro h; exact ⟨c, cs, hc, h⟩
      simp only [hlast]
      constructor
      · rintro ⟨x, hx', a, ts, h1, h2, h3, rfl⟩
        cases htx : c.text with
        | none => rw [htx] at hx'; simp [Etxrd.xriOf] at hx'
        | some t =>
          rw [htx] at hx'
          simp only [Etxrd.xriOf, Except.ok.injEq] at hx'
          subst hx'
          refine ⟨a, ts.reverse ++ [t], h1, ⟨t, ts, rfl, h2, rfl⟩, ?_, t, by simp, Etxrd.full_eq t⟩
          rw [Etxrd.full_eq, List.reverse_cons, ← List.map_reverse] at h3
          rw [List.map_append]
          exact h3
      · rintro ⟨a, texts, h1, ⟨last, ts, rfl, h2, rfl⟩, h3, last', hl, rfl⟩
        simp only [List.getLast?_append, List.getLast?_singleton, Option.some_or, Option.some.injEq] at hl
        subst hl
        cases htx : c.text with
        | none =>
          exfalso
          rw [htx, List.map_append, List.map_cons, List.map_nil, Etxrd.delegates_append] at h3
          obtain ⟨seg, -, h4⟩ := h3.2
          have : '!' ∈ Url.lower U (t!"xri://" ++ bare ((none : Option Str).getD [])) := by rw [h4]; simp
          exact absurd this (by rw [show (t!"xri://" ++ bare ((none : Option Str).getD [])) = t!"xri://" from rfl, Url.lower, if_pos (by decide)]; decide)
        | some t =>
          refine ⟨Xri.XRI t, rfl, a, ts, h1, h2, ?_, by rw [Etxrd.full_eq]; rfl⟩
          rw [htx, List.map_append] at h3
          rw [Etxrd.full_eq, List.reverse_cons, ← List.map_reverse]
          exact h3

/-- There is none exactly if there is no XRD or the last has no CanonicalID. -/
theorem c49_none (U : Url.Uni) (iname : Str) (root : Elem) :
    Etxrd.getCanonicalID U iname root = .ok none ↔
    ∀ xrd, (xrdsOf root).getLast? = some xrd → ∀ c ∈ xrd.children, c.tag ≠ cidTag := by
  have ht : ∀ r : Elem, xrdsOf r = r.findall Etxrd.xrdElemTag := fun _ => rfl
  rw [Etxrd.getCanonicalID, ht, List.getLast?_eq_head?_reverse]
  cases hx : (root.findall Etxrd.xrdElemTag).reverse with
  | nil => simp
  | cons xrd rest =>
    simp only [List.head?_cons, Option.some.injEq, forall_eq']
    have hf : ∀ c, c ∈ xrd.findall Etxrd.canonicalIDTag ↔ c ∈ xrd.children ∧ c.tag = cidTag := by
      intro c; simp only [Elem.findall, List.mem_filter, decide_eq_true_eq]; rfl
    cases hc : xrd.findall Etxrd.canonicalIDTag with
    | nil =>
      simp only [true_iff]
      intro c h1 h2
      have := (hf c).2 ⟨h1, h2⟩
      rw [hc] at this; simp at this
    | cons c cs =>
      have := (hf c).1 (by rw [hc]; simp)
      refine ⟨fun h => ?_, fun h => absurd this.2 (h c this.1)⟩
      simp only [bind_eq_ok, Etxrd.verifyCanonicalID] at h
      obtain ⟨_, -, _, -, _, -, b, -, h⟩ := h
      split at h <;> simp at h

/-- Every other document is refused. -/
theorem c49_otherwise (U : Url.Uni) (iname : Str) (root : Elem) (e : PyErr)
    (h : Etxrd.getCanonicalID U iname root = .error e) :
    e = .xrdsFraud ∨ e = .valueError ∨ e = .attributeError ∨ e = .indexError := by
  have hclimb : ∀ rest c, Etxrd.climb U c rest = .error e → e = .xrdsFraud ∨ e = .valueError ∨ e = .attributeError := by
    intro rest
    induction rest with
    | nil => intro c h; simp [Etxrd.climb] at h
    | cons x r ih =>
      intro c h
      rw [Etxrd.climb, bind_eq_error] at h
      rcases h with h | ⟨p, -, h⟩
      · exact .inr (.inl (Etxrd.parentOf_error h))
      rw [bind_eq_error] at h
      rcases h with h | ⟨q, -, h⟩
      · cases ht : x.findtext Etxrd.canonicalIDTag <;> rw [ht] at h <;> simp [Etxrd.xriOf] at h
        exact .inr (.inr h.symm)
      by_cases hp : p ≠ Url.lower U q
      · rw [if_pos hp] at h; simp at h; exact .inl h.symm
      · rw [if_neg hp] at h; exact ih _ h
  rw [Etxrd.getCanonicalID] at h
  split at h
  · simp at h
  split at h
  · simp at h
  rw [bind_eq_error] at h
  rcases h with h | ⟨t, -, h⟩
  · next c _ _ =>
    cases ht : c.text <;> rw [ht] at h <;> simp [Etxrd.xriOf] at h
    exact .inr (.inr (.inl h.symm))
  simp only [Etxrd.verifyCanonicalID] at h
  rw [bind_eq_error] at h
  rcases h with h | ⟨top, -, h⟩
  · rcases hclimb _ _ h with h | h | h <;> simp [h]
  rw [bind_eq_error] at h
  rcases h with h | ⟨r, -, h⟩
  · rw [Xri.rootAuthority] at h
    (repeat' split at h) <;> simp at h <;> simp [← h]
  rw [bind_eq_error] at h
  rcases h with h | ⟨b, -, h⟩
  · rw [Xri.providerIsAuthoritative, bind_eq_error] at h
    rcases h with h | ⟨_, -, h⟩
    · simp [Etxrd.parentOf_error h]
    · simp at h
  · split at h <;> simp at h; simp [← h]

/-- If the name has a root authority and all XRDs have CanonicalIDs with a `!`, a document that does not delegate that way
    is reported as fraud. -/
theorem c49_fraud (U : Url.Uni) (iname : Str) (root : Elem) (hn : ∃ a, RootOf (bare iname) a) (hx : xrdsOf root ≠ [])
    (ht : ∀ x ∈ xrdsOf root, ∃ c t, (x.children.find? fun c => c.tag = cidTag) = some c ∧ c.text = some t ∧
      '!' ∈ Url.lower U (t!"xri://" ++ bare t))
    (hd : ∀ cid, Etxrd.getCanonicalID U iname root ≠ .ok (some cid)) :
    Etxrd.getCanonicalID U iname root = .error .xrdsFraud := by
  have htt : ∀ r : Elem, xrdsOf r = r.findall Etxrd.xrdElemTag := fun _ => rfl
  have hpar : ∀ s : Str, '!' ∈ s → ∃ p, Xri.parentOf s = .ok p := by
    intro s hs
    rw [Xri.parentOf]
    cases h : rcut '!' s with
    | none => exact absurd hs ((rcut_eq_none_iff _ _).1 h)
    | some p => exact ⟨_, rfl⟩
  have hclimb : ∀ rest c, '!' ∈ c → (∀ x ∈ rest, x ∈ xrdsOf root) →
      Etxrd.climb U c rest = .error .xrdsFraud ∨ ∃ top, Etxrd.climb U c rest = .ok top ∧ '!' ∈ top := by
    intro rest
    induction rest with
    | nil => intro c hc _; exact .inr ⟨c, rfl, hc⟩
    | cons x r ih =>
      intro c hc hr
      obtain ⟨p, hp⟩ := hpar c hc
      obtain ⟨d, t, h1, h2, h3⟩ := ht x (hr x (by simp))
      have hf : x.findtext Etxrd.canonicalIDTag = some t := by
        rw [Etxrd.findtext_eq, firstText]
        have : (x.children.find? fun c => c.tag = Etxrd.canonicalIDTag) = some d := by
          rw [← h1]; congr
        rw [this]; simp [h2]
      rw [Etxrd.climb, hp, hf]
      simp only [ok_bind, Etxrd.xriOf]
      by_cases he : p ≠ Url.lower U (Xri.XRI t)
      · rw [if_pos he]; exact .inl rfl
      · rw [if_neg he]
        simp only [ne_eq, Decidable.not_not] at he
        exact ih p (by rw [he, Etxrd.full_eq]; exact h3) fun y hy => hr y (by simp [hy])
  cases hg : Etxrd.getCanonicalID U iname root with
  | ok r =>
    cases r with
    | some cid => exact absurd hg (hd cid)
    | none =>
      exfalso
      rw [c49_none] at hg
      obtain ⟨x, hl⟩ : ∃ x, (xrdsOf root).getLast? = some x := by
        cases h : (xrdsOf root).getLast? with
        | none => exact absurd (List.getLast?_eq_none_iff.1 h) hx
        | some x => exact ⟨x, rfl⟩
      obtain ⟨c, t, h1, -⟩ := ht x (List.mem_of_getLast? hl)
      have := List.find?_some h1
      simp only [decide_eq_true_eq] at this
      exact hg x hl c (List.mem_of_find?_eq_some h1) this
  | error e =>
    rw [Etxrd.getCanonicalID] at hg
    split at hg
    · simp at hg
    · next xrd rest hr =>
      have hm : ∀ x ∈ xrd :: rest, x ∈ xrdsOf root := fun x h => by rw [htt]; exact List.mem_reverse.1 (hr ▸ h)
      obtain ⟨c, t, h1, h2, h3⟩ := ht xrd (hm xrd (by simp))
      split at hg
      · simp at hg
      · next c' cs hc =>
        have hcc : c' = c := by
          have : (xrd.findall Etxrd.canonicalIDTag).head? = some c := by
            rw [Elem.findall, List.head?_filter, ← h1]; congr
          rw [hc] at this; simpa using this
        subst hcc
        rw [h2] at hg
        simp only [Etxrd.xriOf, ok_bind, Etxrd.verifyCanonicalID] at hg
        rcases hclimb rest (Url.lower U (Xri.XRI t)) (by rw [Etxrd.full_eq]; exact h3) fun x h => hm x (by simp [h]) with h | ⟨top, h, hb⟩
        · rw [h] at hg; simpa using hg.symm
        · obtain ⟨a, ha⟩ := hn
          obtain ⟨p, hp⟩ := hpar top hb
          rw [h, (Etxrd.rootAuthority_iff iname _).2 ⟨a, ha, rfl⟩, ok_bind, ok_bind] at hg
          unfold Xri.providerIsAuthoritative at hg
          rw [hp] at hg
          simp only [ok_bind, pure_eq_ok] at hg
          split at hg
          · simp at hg
          · simp at hg; rw [hg]

def xrd0 (cids : List Str) : Elem := .mk Etxrd.xrdElemTag [] none (cids.map fun c => .mk cidTag [] (some c) [])
def xrds0 (l : List (List Str)) : Elem := .mk Etxrd.rootTag [] none (l.map xrd0)

-- a chain of three
example : Etxrd.getCanonicalID uni0 t!"=Example*a*b" (xrds0 [[t!"=!1"], [t!"xri://=!1!A2"], [t!"=!1!a2!B3", t!"=!9"]]) =
    .ok (some t!"xri://=!1!a2!B3") := by decide +kernel
example : RootOf (bare t!"=Example*a*b") t!"=" := .inr (.inl ⟨'=', _, by simp, rfl, rfl⟩)
example : RootOf (bare t!"xri://(http:example)*a/b") t!"(http:example)" :=
  .inl ⟨t!"http:example", t!"*a/b", by decide, by decide, rfl, rfl⟩
example : RootOf (bare t!"xri://example.com*a/b") t!"example.com" :=
  .inr (.inr ⟨t!"*a/b", rfl, by decide, .inr ⟨'*', by simp, rfl⟩, 'e', rfl, by decide⟩)
-- a stranger's CanonicalID, at the end, in the middle, at the root; one segment too many
example : Etxrd.getCanonicalID uni0 t!"=example*a" (xrds0 [[t!"=!1"], [t!"=!2!3"]]) = .error .xrdsFraud ∧
    Etxrd.getCanonicalID uni0 t!"=example*a*b" (xrds0 [[t!"=!1"], [t!"=!2!2"], [t!"=!1!2!3"]]) = .error .xrdsFraud ∧
    Etxrd.getCanonicalID uni0 t!"@example*a" (xrds0 [[t!"=!1"], [t!"=!1!3"]]) = .error .xrdsFraud ∧
    Etxrd.getCanonicalID uni0 t!"=example*a" (xrds0 [[t!"=!1"], [t!"=!1!2!3"]]) = .error .xrdsFraud := by decide +kernel

/-- Some documents a resolver may send make other exceptions than XRDSFraud: a CanonicalID without `!`, a parent without
    CanonicalID, an empty CanonicalID, a name with an unclosed or slashed cross-reference, an empty name. -/
theorem c49_raises :
    Etxrd.getCanonicalID uni0 t!"=example" (xrds0 [[t!"=example"]]) = .error .valueError ∧
    Etxrd.getCanonicalID uni0 t!"=example*a" (xrds0 [[], [t!"=!1!2"]]) = .error .attributeError ∧
    Etxrd.getCanonicalID uni0 t!"=example" (.mk Etxrd.rootTag [] none [.mk Etxrd.xrdElemTag [] none [.mk cidTag [] none []]]) =
      .error .attributeError ∧
    Etxrd.getCanonicalID uni0 t!"(http://example.com/)*a" (xrds0 [[t!"(http://example.com/)!1"]]) = .error .valueError ∧
    Etxrd.getCanonicalID uni0 t!"xri:///x" (xrds0 [[t!"=!1"]]) = .error .indexError := by decide +kernel

/-- The root authority is compared as written, the CanonicalIDs in lower case: an authority with capitals is never
    responsible for a name. -/
theorem c49_capitals :
    Etxrd.getCanonicalID uni0 t!"Example.com*a" (xrds0 [[t!"Example.com!1"]]) = .error .xrdsFraud := by decide +kernel

end Props
