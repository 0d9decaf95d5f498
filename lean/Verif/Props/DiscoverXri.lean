import Verif.Props.DiscoverDoc
import Verif.Props.Oidutil
/-! # C61: discovery on XRIs -/

namespace Props
open Py Xml Spec Discover

/-- what is asked for: the address and the `Accept` header -/
def asked (g : Get) : Str × Option Str := (g.url, g.accept)

theorem readXRDS_ok {W : World} {i : Nat} {xri : Str} {body : Bytes} {cid : Option Str} {l : List Elem}
    (h : readXRDS W i xri body = .ok (cid, l)) :
    ∃ root, W.xml body = some root ∧ Etxrd.getCanonicalID W.uni xri root = .ok cid ∧
      Etxrd.iterServices W.digits (W.shuffle i) root = .ok l := by
  rw [readXRDS] at h
  obtain ⟨root, h1, h⟩ := bind_eq_ok.1 h
  obtain ⟨c, h2, h⟩ := bind_eq_ok.1 h
  obtain ⟨s, h3, h⟩ := bind_eq_ok.1 h
  simp only [pure_eq_ok, Except.ok.injEq, Prod.mk.injEq] at h
  obtain ⟨rfl, rfl⟩ := h
  refine ⟨root, ?_, h2, h3⟩
  rw [Etxrd.parseXRDS.eq_def] at h1
  split at h1
  · split at h1
    · simp only [Except.ok.injEq] at h1; subst h1; assumption
    · simp at h1
  · simp at h1

/-- how the loop of the resolver ends -/
def QueryEnd (W : World) (xri : Str) (types : List Str) (cid : Option Str) (services : List Elem) (gets : List Get)
    (r : Except PyErr (Option Str × List Elem)) : Prop :=
  (∃ e k, r = .error e ∧ k < types.length ∧ gets.map asked = (types.take (k + 1)).map (fun t => (queryURL xri t, none)) ∧
    ((∃ g, gets.getLast? = some g ∧ g.result = .error e) ∨ ∃ g ∈ gets, ∃ p j, Got g p ∧ readXRDS W j xri p.body = .error e)) ∨
  (gets.map asked = types.map (fun t => (queryURL xri t, none)) ∧ ∃ cid' more, r = .ok (cid', services ++ more) ∧
    ((cid' = cid ∧ ∀ g ∈ gets, ∀ p, ¬ Got g p) ∨
      ∃ pre g post p root, gets = pre ++ g :: post ∧ Got g p ∧ W.xml p.body = some root ∧
        Etxrd.getCanonicalID W.uni xri root = .ok cid' ∧ ∀ g' ∈ post, ∀ p, ¬ Got g' p) ∧
    ∀ s ∈ more, ∃ g ∈ gets, ∃ p root j out, Got g p ∧ W.xml p.body = some root ∧
      Etxrd.iterServices W.digits (W.shuffle j) root = .ok out ∧ s ∈ out)

theorem gets_queryFrom {W : World} {xri : Str} {types : List Str} {i : Nat} {cid : Option Str} {services : List Elem}
    {gets : List Get} {r : Except PyErr (Option Str × List Elem)}
    (h : Gets (queryFrom W xri i cid services types) gets r) : QueryEnd W xri types cid services gets r := by
  induction types generalizing i cid services gets with
  | nil =>
    rw [queryFrom, gets_pure] at h
    obtain ⟨rfl, rfl⟩ := h
    exact .inr ⟨rfl, cid, [], by simp, .inl ⟨rfl, by simp⟩, by simp⟩
  | cons t ts ih =>
    rw [queryFrom, gets_fetch_bind] at h
    rcases h with ⟨e, rfl, rfl⟩ | ⟨p, rest, rfl, h⟩
    · exact .inl ⟨e, 0, rfl, by simp, by simp [asked], .inl ⟨_, rfl, rfl⟩⟩
    · -- what comes after, put behind this request
      have put : ∀ {cid1 : Option Str} {s1 : List Elem}, Gets (queryFrom W xri (i + 1) cid1 s1 ts) rest r →
          (∀ cid', ((cid' = cid1 ∧ ∀ g ∈ rest, ∀ p, ¬ Got g p) → (cid' = cid ∧ ∀ g ∈ (⟨queryURL xri t, none, .ok p⟩ :: rest : List Get), ∀ p, ¬ Got g p) ∨
            ∃ pre g post p' root, (⟨queryURL xri t, none, .ok p⟩ :: rest : List Get) = pre ++ g :: post ∧ Got g p' ∧ W.xml p'.body = some root ∧
              Etxrd.getCanonicalID W.uni xri root = .ok cid' ∧ ∀ g' ∈ post, ∀ p, ¬ Got g' p)) →
          (∃ more1, s1 = services ++ more1 ∧ ∀ s ∈ more1, ∃ root j out, Got ⟨queryURL xri t, none, .ok p⟩ p ∧ W.xml p.body = some root ∧
            Etxrd.iterServices W.digits (W.shuffle j) root = .ok out ∧ s ∈ out) →
          QueryEnd W xri (t :: ts) cid services (⟨queryURL xri t, none, .ok p⟩ :: rest) r := by
        intro cid1 s1 h hc hm
        rcases ih h with ⟨e, k, h1, h2, h3, h4⟩ | ⟨h1, cid', more, h2, h3, h4⟩
        · refine .inl ⟨e, k + 1, h1, by simp; omega, by simp [h3, asked], ?_⟩
          rcases h4 with ⟨g, h5, h6⟩ | ⟨g, h5, h6⟩
          · exact .inl ⟨g, by rw [List.getLast?_cons, h5]; rfl, h6⟩
          · exact .inr ⟨g, by simp [h5], h6⟩
        · obtain ⟨more1, rfl, hm⟩ := hm
          refine .inr ⟨by simp [h1, asked], cid', more1 ++ more, by rw [h2, List.append_assoc], ?_, ?_⟩
          · rcases h3 with h3 | ⟨pre, g, post, p', root, h5, h6⟩
            · exact hc cid' h3
            · exact .inr ⟨_ :: pre, g, post, p', root, by rw [h5]; rfl, h6⟩
          · intro s hs
            rcases List.mem_append.1 hs with hs | hs
            · obtain ⟨root, j, out, k1, k2⟩ := hm s hs
              exact ⟨_, by simp, p, root, j, out, k1, k2⟩
            · obtain ⟨g, hg, k⟩ := h4 s hs
              exact ⟨g, by simp [hg], k⟩
      by_cases hp : p.ok = true
      · rw [if_pos hp, gets_ofPy_bind] at h
        have hgot : Got ⟨queryURL xri t, none, .ok p⟩ p := ⟨rfl, (Page.ok_iff p).1 hp⟩
        rcases h with ⟨e, rfl, he, rfl⟩ | ⟨⟨cid', more⟩, hr, h⟩
        · exact .inl ⟨e, 0, rfl, by simp, by simp [asked], .inr ⟨_, by simp, p, i, hgot, he⟩⟩
        · obtain ⟨root, k1, k2, k3⟩ := readXRDS_ok hr
          refine put h ?_ ⟨more, rfl, fun s hs => ⟨root, i, more, hgot, k1, k3, hs⟩⟩
          rintro c ⟨rfl, hno⟩
          exact .inr ⟨[], _, rest, p, root, rfl, hgot, k1, k2, hno⟩
      · rw [if_neg hp] at h
        refine put h ?_ ⟨[], by simp, by simp⟩
        rintro c ⟨rfl, hno⟩
        refine .inl ⟨rfl, ?_⟩
        intro g hg p' hgot
        rcases List.mem_cons.1 hg with rfl | hg
        · obtain ⟨h1, h2⟩ := hgot
          simp only [Except.ok.injEq] at h1
          subst h1
          exact hp ((Page.ok_iff _).2 h2)
        · exact hno g hg p' hgot

theorem normalizeXRI_eq (x : Str) : normalizeXRI x = bare x := by
  rw [normalizeXRI, bare]
  by_cases h : startsWith x t!"xri://" = true
  · rw [if_pos h, if_pos (by exact h)]
  · rw [if_neg h, if_neg (by exact h)]

theorem gets_discoverXRI {W : World} {id : Str} {gets : List Get} {r : Except PyErr (Str × List Endpoint)}
    (h : Gets (discoverXRI W id) gets r) :
    ∃ q, Gets (query W (bare id) openidTypeUris) gets q ∧
      ((∃ e, q = .error e ∧ (e = .xrdsError ∨ e = .xrdsFraud) ∧ r = .ok (bare id, [])) ∨
       (∃ e, q = .error e ∧ e ≠ .xrdsError ∧ e ≠ .xrdsFraud ∧ r = .error e) ∨
       (∃ services, q = .ok (none, services) ∧ r = .ok (bare id, [])) ∨
       ∃ cid services, q = .ok (some cid, services) ∧
        ((∃ e, endpointsOf W (bare id) 0 services = .error e ∧ r = .error e) ∨
         ∃ es, endpointsOf W (bare id) 0 services = .ok es ∧
           r = .ok (bare id, getOPOrUserServices (es.map (identify (bare id) cid))))) := by
  have hnil : getOPOrUserServices [] = [] := by decide +kernel
  rw [discoverXRI, normalizeXRI_eq, gets_handle] at h
  obtain ⟨g1, g2, r1, rfl, h1, h2⟩ := h
  rw [endpointsXRI, gets_bind] at h1
  have fin : ∀ {e : PyErr}, Gets (foundXRI (bare id) (.error e)) g2 r →
      g2 = [] ∧ ((e = .xrdsError ∨ e = .xrdsFraud) ∧ r = .ok (bare id, []) ∨ e ≠ .xrdsError ∧ e ≠ .xrdsFraud ∧ r = .error e) := by
    intro e h
    by_cases h1 : e = .xrdsError
    · subst h1
      rw [foundXRI, gets_pure, hnil] at h
      exact ⟨h.1, .inl ⟨.inl rfl, h.2⟩⟩
    · by_cases h2 : e = .xrdsFraud
      · subst h2
        rw [foundXRI, gets_pure, hnil] at h
        exact ⟨h.1, .inl ⟨.inr rfl, h.2⟩⟩
      · have : Gets (.done (.error e)) g2 r := by
          revert h
          cases e <;> first | exact absurd rfl h1 | exact absurd rfl h2 | (intro h; exact h)
        rw [gets_done] at this
        exact ⟨this.1, .inr ⟨h1, h2, this.2.symm⟩⟩
  rcases h1 with ⟨e, h1, rfl⟩ | ⟨g3, g4, ⟨cid, services⟩, rfl, h1, h3⟩
  · obtain ⟨rfl, k2⟩ := fin h2
    refine ⟨.error e, by simpa using h1, ?_⟩
    rcases k2 with ⟨h2, h3⟩ | ⟨h2, h3, h4⟩
    · exact .inl ⟨e, rfl, h2, h3⟩
    · exact .inr (.inl ⟨e, rfl, h2, h3, h4⟩)
  · cases cid with
    | none =>
      obtain ⟨rfl, rfl⟩ := gets_done.1 h3
      obtain ⟨rfl, k2⟩ := fin h2
      refine ⟨_, by simpa using h1, .inr (.inr (.inl ⟨services, rfl, ?_⟩))⟩
      rcases k2 with ⟨-, k3⟩ | ⟨k3, -⟩
      · exact k3
      · exact absurd rfl k3
    | some cid =>
      rw [gets_ofPy_bind] at h3
      rcases h3 with ⟨e, rfl, he, rfl⟩ | ⟨es, he, h3⟩
      · obtain ⟨rfl, k2⟩ := fin h2
        refine ⟨_, by simpa using h1, .inr (.inr (.inr ⟨cid, services, rfl, .inl ⟨e, he, ?_⟩⟩))⟩
        obtain ⟨s, -, hb⟩ := endpointsOf_error he
        rcases k2 with ⟨k3, -⟩ | ⟨-, -, k3⟩
        · rcases hb with ⟨rfl, -⟩ | ⟨rfl, -⟩ <;> rcases k3 with k4 | k4 <;> simp at k4
        · exact k3
      · rw [gets_pure] at h3
        obtain ⟨rfl, rfl⟩ := h3
        rw [foundXRI, gets_pure] at h2
        obtain ⟨rfl, rfl⟩ := h2
        exact ⟨_, by simpa using h1, .inr (.inr (.inr ⟨cid, services, rfl, .inr ⟨es, he, rfl⟩⟩))⟩

/-- For an XRI the proxy resolver is asked once for each type of service, in order (and no more once something failed). -/
theorem c61_requests (W : World) (id : Str) (gets : List Get) (r : Except PyErr (Str × List Endpoint))
    (h : Gets (discoverXRI W id) gets r) :
    ∃ k, gets.map asked = (([t!"http://specs.openid.net/auth/2.0/server", t!"http://specs.openid.net/auth/2.0/signon",
      t!"http://openid.net/signon/1.1", t!"http://openid.net/signon/1.0"] : List Str).take k).map
        (fun t => (queryURL (bare id) t, none)) ∧
      (k < 4 → (∃ e, r = .error e) ∨ r = .ok (bare id, [])) := by
  obtain ⟨q, hq, h2⟩ := gets_discoverXRI h
  rw [query] at hq
  rcases gets_queryFrom hq with ⟨e, k, rfl, hk, hg, -⟩ | ⟨hg, cid, more, rfl, -⟩
  · refine ⟨k + 1, hg, fun _ => ?_⟩
    rcases h2 with ⟨e', -, -, h⟩ | ⟨e', -, -, -, h⟩ | ⟨s, h, -⟩ | ⟨c, s, h, -⟩
    · exact .inr h
    · exact .inl ⟨e', h⟩
    · simp at h
    · simp at h
  · exact ⟨4, by rw [hg]; rfl, by simp⟩

/-- The CanonicalID is verified: see `c49_getCanonicalID`. -/
def Verified (U : Url.Uni) (iname : Str) (root : Elem) (cid : Str) : Prop :=
  ∃ authority texts, RootOf (bare iname) authority ∧ (xrdsOf root).mapM (firstText · cidTag) = some texts ∧
    Delegates (t!"xri://" ++ authority) (texts.map fun t => Url.lower U (t!"xri://" ++ bare t)) ∧
    ∃ last, texts.getLast? = some last ∧ cid = t!"xri://" ++ bare last

/-- The endpoints found for an XRI are for its CanonicalID, verified in the last document the resolver gave, and shown under
    the name asked for; their address is that of a service of a document the resolver gave. -/
theorem c61_identified (W : World) (hs : ∀ i l, (W.shuffle i l).Perm l) (hu : ∀ i l, (W.shuffleURIs i l).Perm l) (id : Str)
    (gets : List Get) (name : Str) (services : List Endpoint) (h : Gets (discoverXRI W id) gets (.ok (name, services))) :
    name = bare id ∧ (services = [] ∨ ∃ cid pre g post page root, gets = pre ++ g :: post ∧ Got g page ∧
      (∀ g' ∈ post, ∀ p, ¬ Got g' p) ∧ W.xml page.body = some root ∧ Verified W.uni (bare id) root cid ∧
      ∀ e ∈ services, e.canonicalID = some cid ∧ e.claimedId = some cid ∧ e.displayIdentifier = some (bare id) ∧
        ∃ g' ∈ gets, ∃ p root' xrd service uri e', Got g' p ∧ W.xml p.body = some root' ∧ (xrdsOf root').getLast? = some xrd ∧
          service ∈ xrd.children ∧ service.tag = t!"{xri://$xrd*($v*2.0)}Service" ∧ uri ∈ uriElems service ∧
          IsEndpoint (bare id) service uri e' ∧
          e.serverUrl = e'.serverUrl ∧ e.typeUris = e'.typeUris ∧ e.localId = e'.localId) := by
  obtain ⟨q, hq, h2⟩ := gets_discoverXRI h
  rw [query] at hq
  rcases h2 with ⟨e', -, -, h⟩ | ⟨e', -, -, -, h⟩ | ⟨s, -, h⟩ | ⟨cid, s, rfl, ⟨e, -, h⟩ | ⟨es, hes, h⟩⟩
  · simp only [Except.ok.injEq, Prod.mk.injEq] at h; exact ⟨h.1, .inl h.2⟩
  · simp at h
  · simp only [Except.ok.injEq, Prod.mk.injEq] at h; exact ⟨h.1, .inl h.2⟩
  · simp at h
  · simp only [Except.ok.injEq, Prod.mk.injEq] at h
    obtain ⟨rfl, rfl⟩ := h
    refine ⟨rfl, .inr ?_⟩
    rcases gets_queryFrom hq with ⟨e, k, h, -⟩ | ⟨hg, cid', more, h, hc, hm⟩
    · simp at h
    simp only [List.nil_append, Except.ok.injEq, Prod.mk.injEq] at h
    obtain ⟨rfl, rfl⟩ := h
    rcases hc with ⟨h, -⟩ | ⟨pre, g, post, p, root, h1, h2, h3, h4, h5⟩
    · simp at h
    refine ⟨cid, pre, g, post, p, root, h1, h2, h5, h3, (c49_getCanonicalID ..).1 h4, ?_⟩
    intro e he
    obtain ⟨e0, he0, rfl⟩ := List.mem_map.1 (mem_getOPOrUserServices he)
    refine ⟨rfl, rfl, rfl, ?_⟩
    obtain ⟨j, sv, hsv, es', k1, k2⟩ := endpointsOf_mem hes e0 he0
    obtain ⟨g', hg', p', root', j', out, k3, k4, k5, k6⟩ := hm sv hsv
    obtain ⟨uris, u1, -, u3⟩ := getServiceEndpoints_forall (hu j) k1
    have hi := c44_iterServices W.digits (W.shuffle j') (hs j') root'
    split at hi
    · rw [hi] at k5; simp at k5
    · next xrd hx =>
      obtain ⟨out', k7, k8, -⟩ := hi
      rw [k7] at k5
      simp only [Except.ok.injEq] at k5
      subst k5
      have hmem := List.mem_filter.1 (k8.mem_iff.1 k6)
      have hea : ∀ {us : List Elem} {l : List Endpoint}, Each (fun u e => IsEndpoint (bare id) sv u e) us l → e0 ∈ l →
          ∃ u ∈ us, IsEndpoint (bare id) sv u e0 := by
        intro us l hE hmem
        induction hE with
        | nil => simp at hmem
        | cons h1 _ ih =>
          rcases List.mem_cons.1 hmem with rfl | hmem
          · exact ⟨_, by simp, h1⟩
          · obtain ⟨u, h3, h4⟩ := ih hmem; exact ⟨u, by simp [h3], h4⟩
      obtain ⟨u, hu1, hu2⟩ := hea u3 k2
      exact ⟨g', hg', p', root', xrd, sv, u, e0, k3, k4, hx, hmem.1, by simpa using hmem.2,
        u1.mem_iff.1 (List.mem_filter.1 hu1).1, hu2, rfl, rfl, rfl⟩

/-! ### The address asked for -/

theorem mem_replaceChar {a c : Char} {b s : Str} (h : c ∈ replaceChar a b s) : c ∈ b ∨ c ∈ s := by
  obtain ⟨d, h1, h2⟩ := List.mem_flatMap.1 h
  split at h2
  · exact .inl h2
  · simp at h2; subst h2; exact .inr h1

theorem mem_escapeXref {c : Char} {s : Str} (h : c ∈ Xri.escapeXref s) : c ∈ t!"%2F3F23" ∨ c ∈ s := by
  rw [Xri.escapeXref] at h
  have key : ∀ x : Str, x = t!"%23" ∨ x = t!"%3F" ∨ x = t!"%2F" → c ∈ x → c ∈ t!"%2F3F23" := by
    rintro x (rfl | rfl | rfl) hx <;> simp at hx ⊢ <;> grind
  rcases mem_replaceChar h with h | h
  · exact .inl (key _ (by simp) h)
  · rcases mem_replaceChar h with h | h
    · exact .inl (key _ (by simp) h)
    · rcases mem_replaceChar h with h | h
      · exact .inl (key _ (by simp) h)
      · exact .inr h

theorem mem_escapeXrefs {c : Char} {s : Str} (h : c ∈ Xri.escapeXrefs s) : c ∈ t!"%2F3F23" ∨ c ∈ s := by
  induction s using Xri.escapeXrefs.induct with
  | case1 => simp [Xri.escapeXrefs] at h
  | case2 rest inner after hc hn ih =>
    rw [Xri.escapeXrefs, if_pos rfl] at h
    split at h
    · next i2 a2 hc2 =>
      rw [hc] at hc2
      simp only [Option.some.injEq, Prod.mk.injEq] at hc2
      rw [if_pos (by rw [← hc2.1]; exact hn)] at h
      rcases List.mem_cons.1 h with h | h
      · exact .inr (by simp [h])
      · rcases ih h with h | h
        · exact .inl h
        · exact .inr (by simp [h])
    · next hc2 => rw [hc] at hc2; simp at hc2
  | case3 rest inner after hc hn hlt ih =>
    rw [Xri.escapeXrefs, if_pos rfl] at h
    obtain ⟨hr, -⟩ := (cut_eq_some_iff ..).1 hc
    split at h
    · next i2 a2 hc2 =>
      rw [hc] at hc2
      simp only [Option.some.injEq, Prod.mk.injEq] at hc2
      obtain ⟨rfl, rfl⟩ := hc2
      rw [if_neg hn] at h
      rw [hr]
      simp only [List.cons_append, List.mem_cons, List.mem_append] at h ⊢
      rcases h with h | h | h | h
      · exact .inr (.inl h)
      · rcases mem_escapeXref h with h | h
        · exact .inl (by simpa using h)
        · exact .inr (.inr (.inl h))
      · exact .inr (.inr (.inr (.inl h)))
      · rcases ih h with h | h
        · exact .inl (by simpa using h)
        · exact .inr (.inr (.inr (.inr h)))
    · next hc2 => rw [hc] at hc2; simp at hc2
  | case4 rest hc ih =>
    rw [Xri.escapeXrefs, if_pos rfl] at h
    split at h
    · next hc2 => rw [hc] at hc2; simp at hc2
    · rcases List.mem_cons.1 h with h | h
      · exact .inr (by simp [h])
      · rcases ih h with h | h
        · exact .inl h
        · exact .inr (by simp [h])
  | case5 d rest hne ih =>
    rw [Xri.escapeXrefs, if_neg hne] at h
    rcases List.mem_cons.1 h with h | h
    · exact .inr (by simp [h])
    · rcases ih h with h | h
      · exact .inl h
      · exact .inr (by simp [h])

/-- the scheme is left as it is -/
theorem toURINormal_eq (x : Str) : Xri.toURINormal x = t!"xri://" ++ Percent.quote Xri.iriSafe (Xri.escapeForIRI (bare x)) := by
  have h1 : Xri.XRI x = t!"xri://" ++ bare x := by
    rw [Xri.XRI, bare]
    by_cases h : startsWith x t!"xri://" = true
    · rw [if_pos h, if_pos (by exact h)]
      obtain ⟨t, ht⟩ := (startsWith_iff ..).1 h
      rw [ht]; simp
    · rw [if_neg h, if_neg (by exact h)]
  have h2 : ∀ y, Xri.escapeForIRI (t!"xri://" ++ y) = t!"xri://" ++ Xri.escapeForIRI y := by
    intro y
    rw [Xri.escapeForIRI, Xri.escapeForIRI]
    have : replaceChar '%' t!"%25" (t!"xri://" ++ y) = 'x' :: 'r' :: 'i' :: ':' :: '/' :: '/' :: replaceChar '%' t!"%25" y := by
      simp [replaceChar]
    rw [this]
    simp [Xri.escapeXrefs]
  rw [Xri.toURINormal, Xri.iriToURI, Xri.toIRINormal, h1, h2, Percent.quote_append]
  congr 1

/-- The resolver is asked over HTTP for the name, with the type of document and the type of service as arguments; unless the
    name itself has a query or a fragment, they are the query of the address. -/
theorem c61_url (xri type : Str) :
    startsWith (queryURL xri type) t!"http://proxy.xri.net/" = true ∧ (∀ c ∈ queryURL xri type, c ∈ uriChars) ∧
    ('?' ∉ bare xri → '#' ∉ bare xri → ∃ path query, queryURL xri type = t!"http://proxy.xri.net/" ++ path ++ t!"?" ++ query ∧
      '?' ∉ path ∧ '#' ∉ path ∧ '#' ∉ query ∧
      Percent.parseQsl true query = [(t!"_xrd_r", t!"application/xrds+xml"), (t!"_xrd_t", type)]) := by
  rw [queryURL, toURINormal_eq]
  have hdrop : (t!"xri://" ++ Percent.quote Xri.iriSafe (Xri.escapeForIRI (bare xri))).drop 6 =
      Percent.quote Xri.iriSafe (Xri.escapeForIRI (bare xri)) := by simp
  rw [hdrop, appendArgs, if_neg (by simp)]
  generalize hpath : Percent.quote Xri.iriSafe (Xri.escapeForIRI (bare xri)) = path
  generalize hq : Percent.urlencode [(t!"_xrd_r", t!"application/xrds+xml"), (t!"_xrd_t", type)] = query
  have hpc : ∀ c ∈ path, Percent.isPctChar c = true ∨ (c ∈ Xri.escapeForIRI (bare xri) ∧ c.toNat < 128 ∧
      (Percent.alwaysSafe (UInt8.ofNat c.toNat) = true ∨ c ∈ Xri.iriSafe)) := by
    intro c hc
    rw [← hpath] at hc
    exact Percent.mem_quote _ _ _ hc
  have hmarks : ∀ c, c = '?' ∨ c = '#' → c ∉ bare xri → c ∉ path := by
    intro c hc hn hm
    rcases hpc c hm with h | ⟨h, -⟩
    · rcases hc with rfl | rfl <;> revert h <;> decide
    · rw [Xri.escapeForIRI] at h
      rcases mem_escapeXrefs h with h | h
      · rcases hc with rfl | rfl <;> revert h <;> decide
      · rcases mem_replaceChar h with h | h
        · rcases hc with rfl | rfl <;> revert h <;> decide
        · exact hn h
  refine ⟨(startsWith_iff ..).2 ⟨_, by rw [defaultProxy, List.append_assoc, List.append_assoc]⟩, ?_, ?_⟩
  · have hall : ∀ c : Char, c.toNat < 128 → Percent.isPctChar c = true ∨ Percent.alwaysSafe (UInt8.ofNat c.toNat) = true ∨
        c ∈ Xri.iriSafe ∨ c = '+' ∨ c = '&' ∨ c = '=' → c ∈ uriChars := by
      have key : ∀ n : Fin 128, Percent.isPctChar (Char.ofNat n) = true ∨ Percent.alwaysSafe (UInt8.ofNat n) = true ∨
        Char.ofNat n ∈ Xri.iriSafe ∨ Char.ofNat n = '+' ∨ Char.ofNat n = '&' ∨ Char.ofNat n = '=' → Char.ofNat n ∈ uriChars := by
        decide +kernel
      intro c hc h
      have := key ⟨c.toNat, hc⟩
      simp only [Char.ofNat_toNat] at this
      exact this h
    have hpct : ∀ c : Char, Percent.isPctChar c = true → c.toNat < 128 := by
      intro c h
      rw [Percent.isPctChar, Bool.or_eq_true, beq_iff_eq, List.contains_iff_mem] at h
      rcases h with rfl | h
      · decide
      · revert c; decide
    intro c hc
    rw [List.mem_append, List.mem_append, List.mem_append] at hc
    rcases hc with ((hc | hc) | hc) | hc
    · have : ∀ d ∈ defaultProxy, d ∈ uriChars := by decide +kernel
      exact this c hc
    · rcases hpc c hc with h | ⟨-, h1, h2⟩
      · exact hall c (hpct c h) (.inl h)
      · exact hall c h1 (.inr (h2.imp id .inl))
    · split at hc <;> simp at hc <;> subst hc <;> decide +kernel
    · rw [← hq] at hc
      rcases Percent.urlencode_chars _ c hc with h | rfl | rfl
      · have key : ∀ n : Fin 128, Percent.isQuotedChar (Char.ofNat n) = true → Char.ofNat n ∈ uriChars := by decide +kernel
        have hlt : c.toNat < 128 := by simp [Percent.isQuotedChar] at h; omega
        have := key ⟨c.toNat, hlt⟩
        simp only [Char.ofNat_toNat] at this
        exact this h
      · decide +kernel
      · decide +kernel
  · intro h1 h2
    have hp := hmarks '?' (.inl rfl) h1
    have hh := hmarks '#' (.inr rfl) h2
    refine ⟨path, query, ?_, hp, hh, by rw [← hq]; exact Percent.urlencode_no_hash _, by rw [← hq]; exact c06_urlencode_round_trip _⟩
    rw [if_neg]
    · simp [defaultProxy]
    · rw [List.contains_iff_mem]
      intro hm
      have hsub : ∀ l : Str, '?' ∈ rstripMarks l → '?' ∈ l := by
        intro l h
        rw [rstripMarks, List.mem_reverse] at h
        exact List.mem_reverse.1 (List.dropWhile_subset _ h)
      have := hsub _ hm
      rw [defaultProxy, List.mem_append] at this
      rcases this with h | h
      · revert h; decide
      · exact hp h

example : queryURL t!"=example*é" t!"http://openid.net/signon/1.0" =
    t!"http://proxy.xri.net/=example*%C3%A9?_xrd_r=application%2Fxrds%2Bxml&_xrd_t=http%3A%2F%2Fopenid.net%2Fsignon%2F1.0" := by
  decide +kernel

/-- The arguments are put behind a fragment of the name, where they are no part of the query. -/
theorem c61_fragment : queryURL t!"=example#me" t!"t" =
    t!"http://proxy.xri.net/=example#me?_xrd_r=application%2Fxrds%2Bxml&_xrd_t=t" := by decide +kernel

/-! ### Examples -/

def xriDocument0 (cid : Option Str) (services : List Elem) : Elem :=
  .mk Etxrd.rootTag [] none [.mk Etxrd.xrdElemTag [] none ((cid.map fun c => elem0 cidTag (some c)).toList ++ services)]

/-- the documents the resolver gives: for the first type one with a service, for the third one without -/
def xml1 (b : Bytes) : Option Elem :=
  if b = [1] then some (xriDocument0 (some t!"=!1") [service0 [OPENID_2_0_TYPE] [elem0 Etxrd.uriTag (some t!"http://op/")]])
  else if b = [2] then some (xriDocument0 (some t!"=!2") [])
  else if b = [3] then some (xriDocument0 none [])
  else if b = [5] then some (xriDocument0 (some t!"@!2") [])
  else none

def disco1 : World := { disco0 with xml := xml1 }

def resolver0 (replies : List (Nat × Bytes)) (u : Str) (_ : Option Str) : Except PyErr Page :=
  match ((openidTypeUris.map (queryURL t!"=me")).zip replies).find? (·.1 = u) with
  | some (_, status, body) => .ok ⟨u, status, [], body⟩
  | none => .error .fetchingError

example : (answer (resolver0 [(200, [1]), (404, []), (500, []), (404, [])]) (discoverXRI disco1 t!"xri://=me")).2 =
    .ok (t!"=me", [⟨some t!"xri://=!1", t!"http://op/", [OPENID_2_0_TYPE], none, some t!"xri://=!1", true, some t!"=me"⟩]) := by
  decide +kernel

/-- The services of every document get the CanonicalID of the last one. -/
theorem c61_last_reply :
    (answer (resolver0 [(200, [1]), (404, []), (200, [2]), (404, [])]) (discoverXRI disco1 t!"=me")).2 =
    .ok (t!"=me", [⟨some t!"xri://=!2", t!"http://op/", [OPENID_2_0_TYPE], none, some t!"xri://=!2", true, some t!"=me"⟩]) ∧
    (answer (resolver0 [(200, [1]), (404, []), (200, [3]), (404, [])]) (discoverXRI disco1 t!"=me")).2 = .ok (t!"=me", []) ∧
    (answer (resolver0 [(200, [1]), (404, []), (200, [5]), (404, [])]) (discoverXRI disco1 t!"=me")).2 = .ok (t!"=me", []) := by
  decide +kernel

/-- A service where users choose their identifier gets the CanonicalID as well. -/
theorem c61_op_identifier (iname cid : Str) (e : Endpoint) : (identify iname cid e).claimedId = some cid := rfl

/-! ## C60: what discovery raises -/

theorem identifierURL_error {U : Url.Uni} {id : Str} {e : PyErr} (h : identifierURL U id = .error e) :
    e = .valueError ∨ e = .discoveryFailure := by
  rw [identifierURL] at h
  rcases bind_eq_error.1 h with h | ⟨p, -, h⟩
  · rw [Url.urlparse] at h
    rcases bind_eq_error.1 h with h | ⟨s, -, h⟩
    · exact .inl (Url.urlsplit_error _ _ _ h)
    · simp at h
  · (repeat' split at h) <;> simp at h
    exact .inr h.symm

theorem normalizeURL_error {U : Url.Uni} {url : Str} {e : PyErr} (h : normalizeURL U url = .error e) :
    e = .valueError ∨ e = .discoveryFailure := by
  rw [normalizeURL] at h
  split at h
  · rcases bind_eq_error.1 h with h | ⟨p, -, h⟩
    · rw [Url.urldefrag] at h
      split at h
      · rcases bind_eq_error.1 h with h | ⟨s, -, h⟩
        · rw [Url.urlparse] at h
          rcases bind_eq_error.1 h with h | ⟨s, -, h⟩
          · exact .inl (Url.urlsplit_error _ _ _ h)
          · simp at h
        · simp at h
      · simp at h
    · simp at h
  · next e' he =>
    have := c26_errors _ _ _ he
    subst this
    simp [PyErr.isValueError] at h
    exact .inr h.symm

theorem whereIsYadis_error {W : World} {p : Page} {e : PyErr} (h : whereIsYadis W p = .error e) :
    e ≠ .unicodeError ∧ W.decodeBody (encodingOf ((p.headers.get? t!"content-type").getD [])) p.body = .error e := by
  rw [whereIsYadis] at h
  split at h
  · simp at h
  · split at h
    · simp at h
    · rw [metaLocation] at h
      split at h
      · simp at h
      · simp at h
      · next e' hne hd =>
        simp only [Except.error.injEq] at h
        subst h
        exact ⟨hne, hd⟩

/-- Discovery on a URL raises `DiscoveryFailure`, or what a fetch raised, or what decoding the page raised, or `ValueError`
    from taking a URL apart, or `AttributeError` because of a service with an empty type. -/
theorem c60_url (W : World) (hs : ∀ i l, (W.shuffle i l).Perm l) (id : Str) (gets : List Get) (e : PyErr)
    (h : Gets (discoverURI W id) gets (.error e)) :
    e = .discoveryFailure ∨ e = .valueError ∨ (∃ g ∈ gets, g.result = .error e) ∨
    (∃ g ∈ gets, ∃ page, Got g page ∧ e ≠ .unicodeError ∧
      W.decodeBody (encodingOf ((page.headers.get? t!"content-type").getD [])) page.body = .error e) ∨
    (e = .attributeError ∧ ∃ g ∈ gets, ∃ page root xrd service, Got g page ∧ W.xml page.body = some root ∧
      (xrdsOf root).getLast? = some xrd ∧ service ∈ xrd.children ∧ service.tag = t!"{xri://$xrd*($v*2.0)}Service" ∧
      ∃ t ∈ service.children, t.tag = t!"{xri://$xrd*($v*2.0)}Type" ∧ t.text = none) := by
  rcases gets_discoverURI h with ⟨e', -, h1, h2⟩ | ⟨url, uri, -, -, ⟨e', h1, h2⟩ | ⟨found, services, -, ⟨e', h1, h2⟩ | ⟨c, -, h2⟩⟩⟩
  · simp only [Except.error.injEq] at h2
    subst h2
    rcases h1 with h1 | ⟨_, -, h1⟩
    · rcases identifierURL_error h1 with h | h
      · exact .inr (.inl h)
      · exact .inl h
    · rcases normalizeURL_error h1 with h | h
      · exact .inr (.inl h)
      · exact .inl h
  · simp only [Except.error.injEq] at h2
    subst h2
    rcases gets_discoverYadis h1 with ⟨e', h2, h3⟩ | ⟨g1, g2, y, rfl, h2, h3⟩
    · simp only [Except.error.injEq] at h3
      subst h3
      rcases gets_yadisDiscover h2 with ⟨o, e', rfl, h3, h4⟩ | ⟨p, loc, hp, hw, ⟨-, -, h3⟩ | ⟨l, o, -, rfl, h3⟩⟩
      · simp only [Except.error.injEq] at h3
        subst h3
        rcases h4 with rfl | ⟨p, rfl, ⟨-, rfl⟩ | ⟨hp, hw⟩⟩
        · exact .inr (.inr (.inl ⟨_, List.mem_singleton.2 rfl, rfl⟩))
        · exact .inl rfl
        · obtain ⟨k1, k2⟩ := whereIsYadis_error hw
          exact .inr (.inr (.inr (.inl ⟨_, List.mem_singleton.2 rfl, p, ⟨rfl, (Page.ok_iff p).1 hp⟩, k1, k2⟩)))
      · simp at h3
      · rcases h3 with ⟨e', rfl, h3⟩ | ⟨q, rfl, -, h3⟩ | ⟨q, -, -, h3⟩
        · simp only [Except.error.injEq] at h3
          subst h3
          exact .inr (.inr (.inl ⟨_, List.mem_cons_of_mem _ (List.mem_singleton.2 rfl), rfl⟩))
        · simp only [Except.error.injEq] at h3
          exact .inl h3
        · simp at h3
    · rcases h3 with ⟨e', rfl, hx, hne, -, h3⟩ | ⟨es, -, -, -, h3⟩ | ⟨-, ⟨-, h3⟩ | ⟨-, -, h3⟩⟩
      · simp only [Except.error.injEq] at h3
        subst h3
        obtain ⟨g, hg, page, hgot, hb⟩ : ∃ g ∈ g1, ∃ page, Got g page ∧ y.body = page.body := by
          rcases gets_yadisDiscover h2 with ⟨o, e', -, h3, -⟩ | ⟨p, loc, hp, -, ⟨-, rfl, h3⟩ | ⟨l, o, -, rfl, h3⟩⟩
          · simp at h3
          · simp only [Except.ok.injEq] at h3; exact ⟨_, by simp, p, hp, by rw [h3]⟩
          · rcases h3 with ⟨e', -, h3⟩ | ⟨q, -, -, h3⟩ | ⟨q, rfl, hq, h3⟩
            · simp at h3
            · simp at h3
            · simp only [Except.ok.injEq] at h3
              exact ⟨_, List.mem_cons_of_mem _ (List.mem_singleton.2 rfl), q, hq, by rw [h3]⟩
        rw [hb] at hx
        rcases c57_errors W hs _ _ _ hx with ⟨rfl, -⟩ | ⟨root, xrd, sv, k1, k2, k3, k4, ⟨rfl, k5⟩ | ⟨rfl, -⟩⟩
        · exact absurd rfl hne
        · exact .inr (.inr (.inr (.inr ⟨rfl, g, by simp [hg], page, root, xrd, sv, hgot, k1, k2, k3, k4, k5⟩)))
        · exact .inl rfl
      · simp at h3
      · obtain ⟨o, rfl, ⟨e', rfl, h4⟩ | ⟨p, -, -, h4⟩ | ⟨p, -, -, h4⟩⟩ := gets_discoverNoYadis h3
        · simp only [Except.error.injEq] at h4
          subst h4
          exact .inr (.inr (.inl ⟨_, List.mem_append_right _ (List.mem_singleton.2 rfl), rfl⟩))
        · simp only [Except.error.injEq] at h4
          exact .inl h4
        · simp at h4
      · simp at h3
  · simp only [Except.error.injEq] at h2
    subst h2
    rcases normalizeURL_error h1 with h | h
    · exact .inr (.inl h)
    · exact .inl h
  · simp at h2

/-- `ValueError` comes out: an identifier with a bracket, or one whose host has an escaped bracket and that has a fragment. -/
theorem c60_value_error : (answer net0 (discoverURI disco0 t!"http://[x/")).2 = .error .valueError ∧
    (answer net0 (discoverURI disco0 t!"http://%5Bx/#a")).2 = .error .valueError ∧
    (answer net0 (discoverURI disco0 t!"http://[x/")).1.length = 0 := by decide +kernel

/-- `LookupError` comes out if a page is of a charset Python does not know, `AttributeError` for an empty type. -/
theorem c60_lookup_error :
    (answer (fun u _ => .ok ⟨u, 200, [(t!"content-type", t!"text/html; charset=x-user-defined")], [2]⟩)
      (discoverURI disco0 t!"a.com")).2 = .error .lookupError ∧
    (answer (fun u _ => .ok ⟨u, 200, [(t!"content-type", t!"application/xrds+xml")], [7]⟩)
      (discoverURI { disco0 with xml := fun _ => some (document0 [service0 [] [elem0 Etxrd.typeTag none]]) } t!"a.com")).2 =
      .error .attributeError := by decide +kernel

/-- Discovery on an XRI raises what a fetch raised, or `ValueError`, `AttributeError` or `IndexError` from taking
    apart the name or a CanonicalID, or `DiscoveryFailure` or `AttributeError` because of a service that breaks its document. -/
theorem c60_xri (W : World) (id : Str) (gets : List Get) (e : PyErr) (h : Gets (discoverXRI W id) gets (.error e)) :
    (∃ g ∈ gets, g.result = .error e) ∨ e = .valueError ∨ e = .attributeError ∨ e = .indexError ∨
    ∃ g ∈ gets, ∃ page root j out, ∃ service ∈ out, Got g page ∧ W.xml page.body = some root ∧
      Etxrd.iterServices W.digits (W.shuffle j) root = .ok out ∧ Breaks service e := by
  obtain ⟨q, hq, h2⟩ := gets_discoverXRI h
  rw [query] at hq
  rcases h2 with ⟨e', -, -, h⟩ | ⟨e', rfl, n1, n2, h⟩ | ⟨s, -, h⟩ | ⟨cid, s, rfl, ⟨e', hes, h⟩ | ⟨es, hes, h⟩⟩
  · simp at h
  · simp only [Except.error.injEq] at h
    subst h
    rcases gets_queryFrom hq with ⟨e', k, h, -, -, ⟨g, h1, h2⟩ | ⟨g, hg, p, j, hgot, hr⟩⟩ | ⟨-, c, m, h, -⟩
    · simp only [Except.error.injEq] at h
      subst h
      exact .inl ⟨g, List.mem_of_getLast? h1, h2⟩
    · simp only [Except.error.injEq] at h
      subst h
      right
      rw [readXRDS] at hr
      rcases bind_eq_error.1 hr with hr | ⟨root, -, hr⟩
      · rw [Etxrd.parseXRDS.eq_def] at hr
        (repeat' split at hr) <;> simp at hr <;> exact absurd hr.symm n1
      · rcases bind_eq_error.1 hr with hr | ⟨c, -, hr⟩
        · rcases c49_otherwise W.uni (bare id) root e hr with h | h | h | h
          · exact absurd h n2
          · exact .inl h
          · exact .inr (.inl h)
          · exact .inr (.inr (.inl h))
        · rcases bind_eq_error.1 hr with hr | ⟨c, -, hr⟩
          · rw [Etxrd.iterServices] at hr
            rcases bind_eq_error.1 hr with hr | ⟨c, -, hr⟩
            · rw [Etxrd.getYadisXRD] at hr
              split at hr <;> simp at hr
              exact absurd hr.symm n1
            · simp at hr
          · simp at hr
    · simp at h
  · simp at h
  · simp only [Except.error.injEq] at h
    subst h
    obtain ⟨sv, hsv, hb⟩ := endpointsOf_error hes
    rcases gets_queryFrom hq with ⟨e', k, h, -⟩ | ⟨-, c, m, h, -, hm⟩
    · simp at h
    · simp only [List.nil_append, Except.ok.injEq, Prod.mk.injEq] at h
      obtain ⟨rfl, rfl⟩ := h
      obtain ⟨g, hg, p, root, j, out, k1, k2, k3, k4⟩ := hm sv hsv
      exact .inr (.inr (.inr (.inr ⟨g, hg, p, root, j, out, sv, k4, k1, k2, k3, hb⟩)))
  · simp at h

example : (answer (resolver0 []) (discoverXRI disco1 t!"=me")).2 = .error .fetchingError := by decide +kernel

end Props
