import Verif.Lemmas.Filters
import Verif.Props.DiscoverDoc
/-! # C70: filters of services -/

namespace Props
open Py Xml Discover Filters Spec

variable {α : Type}

/-! ## Which filters there are -/

theorem mkFilter_eq (p : Part α) : ∃ l, mkFilter p = mkCompoundFilter l ∧ stages (.list l) = stages (.list [p]) ∧
    ((∃ q ∈ l, Unfit q) ↔ Unfit p) := by
  cases p with
  | object s b c => exact ⟨_, rfl, rfl, by simp⟩
  | list l =>
    refine ⟨l, rfl, ?_, fun ⟨q, h1, h2⟩ => .list h1 h2, fun h => ?_⟩
    · simp [stages, stagesIn, functionOf]
    · cases h with
      | list h1 h2 => exact ⟨_, h1, h2⟩

/-- `mkFilter` refuses what it is given exactly if something in it, at any depth, is not fit; always with `TypeError`. -/
theorem c70_refused (p : Part α) (e : PyErr) : mkFilter p = .error e ↔ e = .typeError ∧ Unfit p := by
  obtain ⟨l, h1, -, h2⟩ := mkFilter_eq p
  rw [h1, ← h2, ← separate_error, mkCompoundFilter]
  constructor
  · intro h
    rcases bind_eq_error.1 h with h | ⟨x, -, h⟩
    · exact h
    · simp at h
  · intro h
    rw [h]; rfl

/-- However filters are nested, what one gives for a service is what its stages give, one after the other. -/
theorem c70_stages (p : Part α) (f : Filter α) (h : mkFilter p = .ok f) (X : ExtraDigits)
    (shuffle : Nat → List Elem → List Elem) (url : Str) (service : Elem) (i : Nat) :
    f.get X shuffle url service i =
      runStages (fun c => c url service) (fun j fs => transformEndpoints X (shuffle j) fs url service) i (stages (.list [p])) := by
  obtain ⟨l, h1, h2, -⟩ := mkFilter_eq p
  rw [h1, mkCompoundFilter] at h
  obtain ⟨⟨fs, ts⟩, h3, h⟩ := bind_eq_ok.1 h
  simp only [pure_eq_ok, Except.ok.injEq] at h
  subst h
  obtain ⟨k1, k2⟩ := separate_ok l h3
  rw [get_flat, flat_finish, k1, k2, ← h2, stages]

/-! ## What functions give -/

theorem applyFilters_ok {b : Basic} {fs : List (Transform α)} {r : Option α} (h : applyFilters b fs = .ok r) :
    FirstOf fs b r := by
  induction fs with
  | nil => simp [applyFilters] at h; exact .inl ⟨h.symm, by simp⟩
  | cons f rest ih =>
    rw [applyFilters] at h
    obtain ⟨e, h1, h⟩ := bind_eq_ok.1 h
    cases e with
    | some e =>
      simp only [pure_eq_ok, Except.ok.injEq] at h
      exact .inr ⟨[], f, rest, e, h.symm, rfl, by simp, h1⟩
    | none =>
      rcases ih h with ⟨k1, k2⟩ | ⟨pre, g, post, e, k1, k2, k3, k4⟩
      · exact .inl ⟨k1, by simpa [h1] using k2⟩
      · exact .inr ⟨f :: pre, g, post, e, k1, by simp [k2], by simpa [h1] using k3, k4⟩

theorem applyFilters_error {b : Basic} {fs : List (Transform α)} {e : PyErr} (h : applyFilters b fs = .error e) :
    ∃ f ∈ fs, f b = .error e := by
  induction fs with
  | nil => simp [applyFilters] at h
  | cons f rest ih =>
    rw [applyFilters] at h
    rcases bind_eq_error.1 h with h | ⟨x, h1, h⟩
    · exact ⟨f, by simp, h⟩
    · cases x with
      | some x => simp at h
      | none => obtain ⟨g, hg, h⟩ := ih h; exact ⟨g, by simp [hg], h⟩

theorem transformAll_ok {fs : List (Transform α)} {bs : List Basic} {es : List α} (h : transformAll fs bs = .ok es) :
    ∃ rs, Each (FirstOf fs) bs rs ∧ es = rs.filterMap id := by
  induction bs generalizing es with
  | nil => simp [transformAll] at h; exact ⟨[], .nil, by simp [← h]⟩
  | cons b rest ih =>
    rw [transformAll] at h
    obtain ⟨e, h1, h⟩ := bind_eq_ok.1 h
    obtain ⟨more, h2, h⟩ := bind_eq_ok.1 h
    simp only [pure_eq_ok, Except.ok.injEq] at h
    subst h
    obtain ⟨rs, k1, rfl⟩ := ih h2
    refine ⟨e :: rs, .cons (applyFilters_ok h1) k1, ?_⟩
    cases e <;> simp

theorem transformAll_error {fs : List (Transform α)} {bs : List Basic} {e : PyErr} (h : transformAll fs bs = .error e) :
    ∃ b ∈ bs, ∃ f ∈ fs, f b = .error e := by
  induction bs with
  | nil => simp [transformAll] at h
  | cons b rest ih =>
    rw [transformAll] at h
    rcases bind_eq_error.1 h with h | ⟨x, h1, h⟩
    · exact ⟨b, by simp, applyFilters_error h⟩
    · rcases bind_eq_error.1 h with h | ⟨y, -, h⟩
      · obtain ⟨b', hb, h⟩ := ih h; exact ⟨b', by simp [hb], h⟩
      · simp at h

theorem getTypeURIs_cases (service : Elem) : Etxrd.getTypeURIs service = .ok (typesOf service) ∨
    Etxrd.getTypeURIs service = .error .attributeError ∧
      ∃ t ∈ service.children, t.tag = t!"{xri://$xrd*($v*2.0)}Type" ∧ t.text = none := by
  cases h : Etxrd.getTypeURIs service with
  | ok types => exact .inl (by rw [getTypeURIs_ok h])
  | error e =>
    right
    rw [Etxrd.getTypeURIs] at h
    obtain ⟨t, ht, h⟩ := mapM_error h
    rw [Elem.findall, List.mem_filter, decide_eq_true_eq] at ht
    split at h
    · simp at h
    · next hn =>
      simp only [Except.error.injEq] at h
      exact ⟨by rw [h], t, ht.1, ht.2, hn⟩

/-- The pairs of types and URI of a service. -/
theorem expandService_cases (X : ExtraDigits) (shuffle : List Elem → List Elem) (hs : ∀ l, (shuffle l).Perm l) (service : Elem) :
    (∃ uris, UrisOf X service uris ∧ Etxrd.expandService X shuffle service = .ok (uris.map fun u => (typesOf service, u))) ∨
    Etxrd.expandService X shuffle service = .error .attributeError ∧
      ∃ t ∈ service.children, t.tag = t!"{xri://$xrd*($v*2.0)}Type" ∧ t.text = none := by
  obtain ⟨out, h1, h2, h3⟩ := c44_sortedURIs X shuffle hs service
  rw [Etxrd.expandService, h1]
  have hu : (if (out.map (·.text)).isEmpty then [none] else out.map (·.text)) = if out = [] then [none] else out.map (·.text) := by
    cases out <;> simp
  simp only [hu]
  have hne : (if out = [] then [none] else out.map (·.text)) ≠ [] := by
    cases out <;> simp
  have hU : UrisOf X service (if out = [] then [none] else out.map (·.text)) := ⟨out, h2, h3, rfl⟩
  revert hne hU
  generalize (if out = [] then [none] else out.map (·.text)) = uris
  intro hne hU
  rcases getTypeURIs_cases service with ht | ⟨ht, hx⟩
  · refine .inl ⟨uris, hU, ?_⟩
    clear hU hne
    induction uris with
    | nil => rfl
    | cons u us ih => rw [List.mapM_cons, ht, ok_bind, pure_eq_ok, ok_bind, ← ht, ih]; rfl
  · refine .inr ⟨?_, hx⟩
    cases uris with
    | nil => exact absurd rfl hne
    | cons u us => rw [List.mapM_cons, ht]; rfl

/-- A list of functions gives, for each URI of the service by priority, what the first of them gives that gives something. -/
theorem c70_functions (X : ExtraDigits) (shuffle : List Elem → List Elem) (hs : ∀ l, (shuffle l).Perm l)
    (fs : List (Transform α)) (url : Str) (service : Elem) (es : List α)
    (h : transformEndpoints X shuffle fs url service = .ok es) :
    ∃ uris results, UrisOf X service uris ∧
      Each (fun u r => FirstOf fs ⟨url, typesOf service, u, service⟩ r) uris results ∧ es = results.filterMap id := by
  rw [transformEndpoints] at h
  rcases expandService_cases X shuffle hs service with ⟨uris, h1, h2⟩ | ⟨h2, -⟩
  · rw [h2, ok_bind] at h
    obtain ⟨rs, k1, k2⟩ := transformAll_ok h
    refine ⟨uris, rs, h1, ?_, k2⟩
    rw [List.map_map] at k1
    clear h h1 h2 k2
    induction uris generalizing rs with
    | nil => cases k1; exact .nil
    | cons u us ih => cases k1 with | cons a b => exact .cons a (ih _ b)
  · rw [h2] at h; simp at h

/-- It raises what a function raised, or `AttributeError` because of a type without text. -/
theorem c70_raised (X : ExtraDigits) (shuffle : List Elem → List Elem) (hs : ∀ l, (shuffle l).Perm l)
    (fs : List (Transform α)) (url : Str) (service : Elem) (e : PyErr)
    (h : transformEndpoints X shuffle fs url service = .error e) :
    (e = .attributeError ∧ ∃ t ∈ service.children, t.tag = t!"{xri://$xrd*($v*2.0)}Type" ∧ t.text = none) ∨
    ∃ uris, UrisOf X service uris ∧ ∃ u ∈ uris, ∃ f ∈ fs, f ⟨url, typesOf service, u, service⟩ = .error e := by
  rw [transformEndpoints] at h
  rcases expandService_cases X shuffle hs service with ⟨uris, h1, h2⟩ | ⟨h2, hx⟩
  · rw [h2, ok_bind] at h
    obtain ⟨b, hb, f, hf, h⟩ := transformAll_error h
    rw [List.map_map, List.mem_map] at hb
    obtain ⟨u, hu, rfl⟩ := hb
    exact .inr ⟨uris, h1, u, hu, f, hf, h⟩
  · rw [h2] at h
    simp only [error_bind, Except.error.injEq] at h
    exact .inl ⟨h.symm, hx⟩

/-! ## Documents -/

theorem _root_.Spec.Each.imp {β γ : Type} {R S : β → γ → Prop} (h : ∀ a b, R a b → S a b) {l : List β} {m : List γ} (he : Each R l m) :
    Each S l m := by
  induction he with
  | nil => exact .nil
  | cons h1 _ ih => exact .cons (h _ _ h1) ih

theorem _root_.Spec.Each.mem_right {β γ : Type} {R : β → γ → Prop} {l : List β} {m : List γ} (he : Each R l m) {b : γ} (hb : b ∈ m) :
    ∃ a ∈ l, R a b := by
  induction he with
  | nil => simp at hb
  | cons h1 _ ih =>
    rcases List.mem_cons.1 hb with rfl | hb
    · exact ⟨_, by simp, h1⟩
    · obtain ⟨a, ha, h⟩ := ih hb; exact ⟨a, by simp [ha], h⟩

theorem _root_.Spec.Each.mem_left {β γ : Type} {R : β → γ → Prop} {l : List β} {m : List γ} (he : Each R l m) {a : β} (ha : a ∈ l) :
    ∃ b ∈ m, R a b := by
  induction he with
  | nil => simp at ha
  | cons h1 _ ih =>
    rcases List.mem_cons.1 ha with rfl | ha
    · exact ⟨_, by simp, h1⟩
    · obtain ⟨b, hb, h⟩ := ih ha; exact ⟨b, by simp [hb], h⟩

theorem parseXRDS_cases (tree : Option Elem) :
    (∃ root, tree = some root ∧ root.tag = t!"{xri://$xrds}XRDS" ∧ Etxrd.parseXRDS tree = .ok root) ∨
    Etxrd.parseXRDS tree = .error .xrdsError ∧ ∀ root, tree = some root → root.tag ≠ t!"{xri://$xrds}XRDS" := by
  rw [Etxrd.parseXRDS.eq_def]
  cases tree with
  | none => exact .inr ⟨rfl, by simp⟩
  | some root =>
    simp only [Etxrd.isXRDS, decide_eq_true_eq]
    by_cases h : root.tag = Etxrd.rootTag
    · rw [if_pos h]; exact .inl ⟨root, rfl, h, rfl⟩
    · rw [if_neg h]; exact .inr ⟨rfl, by rintro _ ⟨⟩; exact h⟩

theorem services_cases (W : World) (hs : ∀ i l, (W.shuffle i l).Perm l) (root : Elem) (ht : root.tag = t!"{xri://$xrds}XRDS") :
    (∃ services out, ServicesOf root services ∧ out.Perm services ∧ out.Pairwise (MayPrecede W.digits) ∧
      Etxrd.iterServices W.digits (W.shuffle 0) root = .ok out) ∨
    Etxrd.iterServices W.digits (W.shuffle 0) root = .error .xrdsError ∧
      root.children.filter (fun c => c.tag = t!"{xri://$xrd*($v*2.0)}XRD") = [] := by
  have hi := c44_iterServices W.digits (W.shuffle 0) (hs 0) root
  split at hi
  · next hx => exact .inr ⟨hi, List.getLast?_eq_none_iff.1 hx⟩
  · next xrd hx =>
    obtain ⟨out, h3, h4, h5⟩ := hi
    exact .inl ⟨_, out, ⟨ht, xrd, hx, rfl⟩, h4, h5, h3⟩

theorem allEndpoints_ok {W : World} {f : Filter α} {url : Str} {l : List Elem} {i : Nat} {es : List α}
    (h : allEndpoints W f url i l = .ok es) :
    ∃ groups : List (List α), Each (fun s g => ∃ j, f.get W.digits W.shuffleURIs url s j = .ok g) l groups ∧ es = groups.flatten := by
  induction l generalizing i es with
  | nil => simp [allEndpoints] at h; exact ⟨[], .nil, by simp [← h]⟩
  | cons s rest ih =>
    rw [allEndpoints] at h
    obtain ⟨a, h1, h⟩ := bind_eq_ok.1 h
    obtain ⟨b, h2, h⟩ := bind_eq_ok.1 h
    simp only [pure_eq_ok, Except.ok.injEq] at h
    subst h
    obtain ⟨gs, k1, rfl⟩ := ih h2
    exact ⟨a :: gs, .cons ⟨i, h1⟩ k1, by simp⟩

theorem allEndpoints_error {W : World} {f : Filter α} {url : Str} {l : List Elem} {i : Nat} {e : PyErr}
    (h : allEndpoints W f url i l = .error e) : ∃ s ∈ l, ∃ j, f.get W.digits W.shuffleURIs url s j = .error e := by
  induction l generalizing i with
  | nil => simp [allEndpoints] at h
  | cons s rest ih =>
    rw [allEndpoints] at h
    rcases bind_eq_error.1 h with h | ⟨x, h1, h⟩
    · exact ⟨s, by simp, i, h⟩
    · rcases bind_eq_error.1 h with h | ⟨y, -, h⟩
      · obtain ⟨t, ht, h⟩ := ih h; exact ⟨t, by simp [ht], h⟩
      · simp at h

/-- What a filter gives for a document: what its stages give for the services of the last XRD, by priority. -/
theorem c70_services (W : World) (hs : ∀ i l, (W.shuffle i l).Perm l) (p : Part α) (url : Str) (body : Bytes) (es : List α)
    (h : applyFilter W p url body = .ok es) :
    ¬ Unfit p ∧ ∃ root services, W.xml body = some root ∧ ServicesOf root services ∧
    ∃ out : List Elem, out.Perm services ∧ out.Pairwise (MayPrecede W.digits) ∧
    ∃ groups : List (List α), es = groups.flatten ∧ Each (fun service g => ∃ i,
      runStages (fun c => c url service) (fun j fs => transformEndpoints W.digits (W.shuffleURIs j) fs url service) i
        (stages (.list [p])) = .ok g) out groups := by
  rw [applyFilter] at h
  obtain ⟨f, h0, h⟩ := bind_eq_ok.1 h
  obtain ⟨root, h1, h⟩ := bind_eq_ok.1 h
  obtain ⟨out, h2, h⟩ := bind_eq_ok.1 h
  refine ⟨fun hu => ?_, ?_⟩
  · rw [(c70_refused p _).2 ⟨rfl, hu⟩] at h0; simp at h0
  rcases parseXRDS_cases (W.xml body) with ⟨root', k1, k2, k3⟩ | ⟨k3, -⟩
  · rw [k3] at h1
    simp only [Except.ok.injEq] at h1
    subst h1
    rcases services_cases W hs root' k2 with ⟨services, out', j1, j2, j3, j4⟩ | ⟨j4, -⟩
    · rw [j4] at h2
      simp only [Except.ok.injEq] at h2
      subst h2
      obtain ⟨gs, g1, g2⟩ := allEndpoints_ok h
      refine ⟨root', services, k1, j1, out', j2, j3, gs, g2, ?_⟩
      refine g1.imp ?_
      rintro s g ⟨i, hi⟩
      exact ⟨i, by rw [← c70_stages p f h0, hi]⟩
    · rw [j4] at h2; simp at h2
  · rw [k3] at h1; simp at h1

/-- A document is refused with `XRDSError` if it is not one or has no XRD; other exceptions come from the filter: `TypeError`
    for one that is not fit, or what a stage raised for a service of the last XRD. -/
theorem c70_errors (W : World) (hs : ∀ i l, (W.shuffle i l).Perm l) (p : Part α) (url : Str) (body : Bytes) (e : PyErr)
    (h : applyFilter W p url body = .error e) :
    (e = .typeError ∧ Unfit p) ∨
    (e = .xrdsError ∧ ∀ root, W.xml body = some root → ∀ services, ¬ ServicesOf root services) ∨
    ∃ root services, W.xml body = some root ∧ ServicesOf root services ∧ ∃ service ∈ services, ∃ i,
      runStages (fun c => c url service) (fun j fs => transformEndpoints W.digits (W.shuffleURIs j) fs url service) i
        (stages (.list [p])) = .error e := by
  rw [applyFilter] at h
  rcases bind_eq_error.1 h with h | ⟨f, h0, h⟩
  · exact .inl ((c70_refused p e).1 h)
  right
  rcases parseXRDS_cases (W.xml body) with ⟨root, k1, k2, k3⟩ | ⟨k3, k4⟩
  · rw [k3, ok_bind] at h
    rcases services_cases W hs root k2 with ⟨services, out, j1, j2, j3, j4⟩ | ⟨j4, j5⟩
    · rw [j4, ok_bind] at h
      obtain ⟨s, hs, j, h⟩ := allEndpoints_error h
      exact .inr ⟨root, services, k1, j1, s, j2.mem_iff.1 hs, j, by rw [← c70_stages p f h0, h]⟩
    · rw [j4] at h
      simp only [error_bind, Except.error.injEq] at h
      refine .inl ⟨h.symm, ?_⟩
      rintro r hr services ⟨-, xrd, hx, -⟩
      rw [k1] at hr
      simp only [Option.some.injEq] at hr
      subst hr
      rw [j5] at hx
      simp at hx
  · rw [k3] at h
    simp only [error_bind, Except.error.injEq] at h
    exact .inl ⟨h.symm, fun r hr services hx => k4 r hr hx.1⟩

/-- Without a filter, every service gives one basic endpoint for each of its URIs, by priority, or one without URI. -/
theorem c70_default (W : World) (hs : ∀ i l, (W.shuffle i l).Perm l) (hu : ∀ i l, (W.shuffleURIs i l).Perm l) (url : Str)
    (body : Bytes) (es : List Basic) (h : applyFilter W anyService url body = .ok es) :
    ∃ root services, W.xml body = some root ∧ ServicesOf root services ∧
    ∃ out : List Elem, out.Perm services ∧ out.Pairwise (MayPrecede W.digits) ∧
    ∃ uris : List (List (Option Str)), Each (fun service us => UrisOf W.digits service us) out uris ∧
      es = (out.zip uris).flatMap fun p => p.2.map fun u => ⟨url, typesOf p.1, u, p.1⟩ := by
  obtain ⟨-, root, services, h1, h2, out, h3, h4, groups, rfl, h5⟩ := c70_services W hs _ url body es h
  refine ⟨root, services, h1, h2, out, h3, h4, ?_⟩
  clear h h1 h2 h3 h4
  induction h5 with
  | nil => exact ⟨[], .nil, rfl⟩
  | @cons s g ss gs hi _ ih =>
    obtain ⟨uris, k1, k2⟩ := ih
    obtain ⟨i, hi⟩ := hi
    have hst : stages (.list [anyService]) = [.first [fun b => .ok (some b)]] := by
      simp [anyService, stages, stagesIn, functionOf]
    rw [hst, runStages, runStages] at hi
    obtain ⟨x, hx, hi2⟩ := bind_eq_ok.1 hi
    simp only [ok_bind, pure_eq_ok, List.append_nil, Except.ok.injEq] at hi2
    subst hi2
    obtain ⟨us, rs, j1, j2, rfl⟩ := c70_functions _ _ (hu i) _ _ _ _ hx
    refine ⟨us :: uris, .cons j1 k1, ?_⟩
    rw [List.flatten_cons, k2, List.zip_cons_cons, List.flatMap_cons]
    congr 1
    clear hi hx j1 k1 k2
    induction j2 with
    | nil => rfl
    | cons hf _ ih =>
      rcases hf with ⟨-, hf⟩ | ⟨pre, f, post, e, rfl, he, -, hf⟩
      · simp at hf
      · have : f = fun b => .ok (some b) := by
          cases pre with
          | nil => exact (List.cons.inj he).1.symm
          | cons a pre => simp at he
        rw [this] at hf
        simp only [Except.ok.injEq, Option.some.injEq] at hf
        rw [List.filterMap_cons, List.map_cons, ih, ← hf]
        rfl

/-- The endpoints a consumer finds in a document are those of the filter for OpenID services. -/
theorem c70_consumer (W : World) (url : Str) (body : Bytes) : fromXRDS W url body = applyFilter W openidService url body := by
  have hf : mkFilter openidService = .ok (.transform [fun b => fromBasicServiceEndpoint b.yadisUrl b.types b.service b.uri]) := by
    simp [mkFilter, mkCompoundFilter, separate, classify, openidService, finish, pure_eq_ok, ok_bind]
  have h1 : ∀ (s : Elem) (bs : List (List Str × Option Str)),
      transformAll [fun b => fromBasicServiceEndpoint b.yadisUrl b.types b.service b.uri] (bs.map fun p => ⟨url, p.1, p.2, s⟩) =
      (do
        let found ← bs.mapM fun b => fromBasicServiceEndpoint url b.1 s b.2
        return found.filterMap id) := by
    intro s bs
    induction bs with
    | nil => rfl
    | cons b bs ih =>
      rw [List.map_cons, transformAll, ih, List.mapM_cons]
      simp only [applyFilters]
      cases fromBasicServiceEndpoint url b.1 s b.2 with
      | error e => rfl
      | ok r =>
        simp only [ok_bind]
        cases List.mapM (fun b => fromBasicServiceEndpoint url b.1 s b.2) bs with
        | error e => cases r <;> rfl
        | ok l => cases r <;> rfl
  have h2 : ∀ (l : List Elem) (i : Nat), endpointsOf W url i l =
      allEndpoints W (.transform [fun b => fromBasicServiceEndpoint b.yadisUrl b.types b.service b.uri]) url i l := by
    intro l
    induction l with
    | nil => intro i; rfl
    | cons s rest ih =>
      intro i
      rw [endpointsOf, allEndpoints, ih, Filter.get, transformEndpoints, Discover.getServiceEndpoints]
      simp only [h1, Filter.shuffles]
  rw [fromXRDS, applyFilter, hf]
  simp only [ok_bind, h2]

/-- Functions come after the lists beside them, wherever they stand: the function is first, and what it gives comes last. -/
theorem c70_functions_last :
    applyFilter disco0 (.list [.object none none (some fun _ => .ok (some 1)),
        .list [.object none none (some fun _ => .ok (some 2))]]) t!"http://a/" [4] = .ok [2, 1] ∧
    applyFilter disco0 (.list [.list [.object none none (some fun _ => .ok (some 1))],
        .list [.object none none (some fun _ => .ok (some 2))]]) t!"http://a/" [4] = .ok [1, 2] := by decide +kernel

-- only functions of one list are alternatives
example : applyFilter disco0 (.list [.object none none (some fun b => .ok (if OPENID_2_0_TYPE ∈ b.types then some 1 else none)),
      .object none (some fun b => .ok (b.uri.map (·.length))) none]) t!"http://a/" [1] = .ok [13, 1, 9] ∧
    applyFilter disco0 (.list [.object none none (some fun b => .ok (if OPENID_2_0_TYPE ∈ b.types then some 1 else none)),
      .list [.object none (some fun b => .ok (b.uri.map (·.length))) none]]) t!"http://a/" [1] = .ok [13, 10, 1, 9] ∧
    applyFilter disco0 (.list [.object (some fun _ _ => .ok [7, 7]) none none, .list []]) t!"http://a/" [4] = .ok [7, 7] ∧
    (applyFilter disco0 anyService t!"http://a/" [1]).map (fun l => l.map fun b => (b.yadisUrl, b.uri)) =
      .ok [(t!"http://a/", some t!"http://op/any"), (t!"http://a/", some t!"http://op/"), (t!"http://a/", some t!"http://x/")] := by
  decide +kernel

example : Unfit (Part.list [Part.object none none (some fun _ => .ok (some 1)), .list [.object none none none]]) :=
  .list (List.mem_cons_of_mem _ List.mem_cons_self) (.list List.mem_cons_self .object)

example : applyFilter disco0 (.list [.list [.object none none none]] : Part Nat) t!"http://a/" [9] = .error .typeError ∧
    applyFilter disco0 (.list [] : Part Nat) t!"http://a/" [9] = .error .xrdsError ∧
    applyFilter disco0 (.object none none (some fun _ => .error .keyError) : Part Nat) t!"http://a/" [4] = .error .keyError := by
  decide +kernel

end Props
