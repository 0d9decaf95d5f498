import Verif.Lemmas.MessageAbs
/-! # Properties of messages: C07, C08, C09 -/

namespace Props
open Py Message Spec

/-! ## C07 -/

/-- C07: whatever `fromPostArgs` accepts, `toPostArgs` gives back: the same keys with the same values.
    `reg` is the table of registered aliases; neither it nor the message may use the literal `sreg` as
    a namespace URI. -/
theorem c07_roundtrip (reg args : Dict Str Str) (hw : Dict.WF args)
    (hreg : ∀ alias uri, reg.get? alias = some uri → uri ≠ t!"sreg")
    (hdecl : ∀ alias uri, args.get? (t!"openid.ns." ++ alias) = some uri → uri ≠ t!"sreg")
    (m : Msg) (h : fromPostArgs reg args = .ok m) :
    Dict.WF m.toPostArgs ∧ Dict.Same m.toPostArgs args := by
  obtain ⟨-, hp⟩ := Message.roundtrip reg args hw hreg
    (fun k v hkv => hdecl k v (Dict.get?_of_mem args hw _ _ hkv)) m h
  have hw2 : Dict.WF m.toPostArgs := by rw [Dict.WF] at *; exact (List.Perm.nodup_iff (hp.map _)).2 hw
  exact ⟨hw2, fun k => Dict.get?_perm hw2 hp k⟩

/-- the library's own table of registered aliases (openid/extensions/sreg.py:98) -/
def libReg : Dict Str Str := [(t!"sreg", t!"http://openid.net/extensions/sreg/1.1")]

/-- C07 with the aliases the library registers. -/
theorem c07_roundtrip_lib (args : Dict Str Str) (hw : Dict.WF args)
    (hdecl : ∀ alias uri, args.get? (t!"openid.ns." ++ alias) = some uri → uri ≠ t!"sreg")
    (m : Msg) (h : fromPostArgs libReg args = .ok m) : Dict.Same m.toPostArgs args := by
  refine (c07_roundtrip libReg args hw ?_ hdecl m h).2
  intro a u hu
  have := Dict.get?_mem _ _ _ hu
  simp [libReg] at this
  rw [this.2]; decide

/-- an OpenID 1 message with an implicit and a declared extension, an argument with an undeclared
    alias, and a bare argument -/
def sample1 : Dict Str Str :=
  [(t!"openid.mode", t!"id_res"), (t!"openid.sreg.nickname", t!"x"), (t!"foo", t!"bar"),
   (t!"openid.ns.a", t!"http://example.com/a"), (t!"openid.a.b.c", t!"v"), (t!"openid.q.r", t!"w"),
   (t!"openid.sreg.email", t!"y")]

example : Dict.WF sample1 ∧ ∃ m, fromPostArgs libReg sample1 = .ok m ∧ m.isOpenID1 = true ∧
    m.getArg (.uri t!"http://openid.net/extensions/sreg/1.1") t!"email" = .ok (some t!"y") ∧
    m.getArg .openid t!"q.r" = .ok (some t!"w") := by
  refine ⟨by decide, _, rfl, by decide, by decide, by decide⟩

example : ∃ m, fromPostArgs libReg [(t!"openid.ns", OPENID2_NS), (t!"openid.sreg.a", t!"1")] = .ok m ∧
    m.isOpenID2 = true := ⟨_, rfl, by decide⟩

/-- C07 also for a message read from its `openid.` arguments (and so from key-value form):
    `toArgs` gives them back. -/
theorem c07_roundtrip_openid (reg args : Dict Str Str) (hw : Dict.WF args)
    (hreg : ∀ alias uri, reg.get? alias = some uri → uri ≠ t!"sreg")
    (hdecl : ∀ alias uri, args.get? (t!"ns." ++ alias) = some uri → uri ≠ t!"sreg")
    (m : Msg) (h : fromOpenIDArgs reg args = .ok m) :
    ∃ d, m.toArgs = .ok d ∧ Dict.WF d ∧ Dict.Same d args := by
  obtain ⟨-, -, hp⟩ := Message.fromOpenIDArgs_spec reg args hw hreg
    (fun k v hkv => hdecl k v (Dict.get?_of_mem args hw _ _ hkv)) m h
  have hw1 : Dict.WF (args.map fun p => (t!"openid." ++ p.1, p.2)) := by
    rw [Dict.WF, Dict.keys, List.nodup_iff_pairwise_ne, List.pairwise_map] at hw
    rw [Dict.WF, Dict.keys, List.map_map, List.nodup_iff_pairwise_ne, List.pairwise_map]
    exact hw.imp (fun hab he => hab (by simpa using he))
  have hw2 : Dict.WF (nsPairs m.namespaces ++ argPairs m) := by
    rw [Dict.WF] at hw1 ⊢; exact (List.Perm.nodup_iff (hp.map _)).2 hw1
  rw [Msg.toArgs, toPostArgs_eq, Dict.ofPairs_eq_self _ hw2]
  generalize nsPairs m.namespaces ++ argPairs m = L at hp hw2
  have hpre : ∀ p ∈ L, ∃ r, p.1 = t!"openid." ++ r := by
    intro p hpL
    obtain ⟨q, -, rfl⟩ := List.mem_map.1 (hp.mem_iff.1 hpL)
    exact ⟨q.1, rfl⟩
  have hfold : ∀ (L : List (Str × Str)) (d : Dict Str Str), (∀ p ∈ L, ∃ r, p.1 = t!"openid." ++ r) →
      L.foldlM (fun (d : Dict Str Str) (p : Str × Str) =>
        if startsWith p.1 t!"openid." then Except.ok (Dict.set d (p.1.drop 7) p.2)
        else Except.error PyErr.valueError) d = .ok (Dict.update d (L.map fun p => (p.1.drop 7, p.2))) := by
    intro L
    induction L with
    | nil => intro d _; rfl
    | cons p r ih =>
      intro d hL
      rw [List.foldlM_cons]
      rw [if_pos ((startsWith_iff _ _).2 (hL p (by simp)))]
      simp only [ok_bind]
      rw [ih _ (fun q hq => hL q (by simp [hq]))]
      rfl
  rw [hfold L [] hpre]
  have hp' : (L.map fun p => (p.1.drop 7, p.2)).Perm args := by
    have := hp.map (fun p => (p.1.drop 7, p.2))
    rw [List.map_map] at this
    simpa [Function.comp_def] using this
  have hw3 : Dict.WF (L.map fun p => (p.1.drop 7, p.2)) := by
    rw [Dict.WF] at hw ⊢; exact (List.Perm.nodup_iff (hp'.map _)).2 hw
  have := Dict.ofPairs_eq_self _ hw3
  rw [Dict.ofPairs] at this
  rw [this]
  exact ⟨_, rfl, hw3, fun k => Dict.get?_perm hw3 hp' k⟩

example : ∃ m, fromOpenIDArgs libReg [(t!"ns", OPENID2_NS), (t!"ns.e", t!"u"), (t!"e.k", t!"1"),
    (t!"mode", t!"error")] = .ok m ∧ m.getArg (.uri t!"u") t!"k" = .ok (some t!"1") := ⟨_, rfl, by decide⟩

/-- C07, the exception: if a message declares the literal `sreg` as a namespace URI, the argument
    moves to another namespace and is sent back under another key. -/
theorem c07_sreg_literal_breaks :
    ∃ args m, Dict.WF args ∧ fromPostArgs libReg args = .ok m ∧
      args.get? t!"openid.a.b" = some t!"v" ∧ m.toPostArgs.get? t!"openid.a.b" = none ∧
      m.toPostArgs.get? t!"openid.ext0.b" = some t!"v" :=
  ⟨[(t!"openid.ns.a", t!"sreg"), (t!"openid.a.b", t!"v")], _, by decide, rfl, by decide, by decide, by decide⟩

/-! ## C08 -/

/-- C08: after any history of additions, failed ones included, aliases and URIs correspond one to one. -/
theorem c08_one_to_one (ops : List NsOp) :
    let m := ops.foldl nsStep {}
    (∀ uri alias, m.getAlias uri = some alias ↔ m.getNamespaceURI alias = some uri) ∧
    (∀ uri uri' alias, m.getAlias uri = some alias → m.getAlias uri' = some alias → uri = uri') ∧
    (∀ uri alias alias', m.getNamespaceURI alias = some uri → m.getNamespaceURI alias' = some uri →
      alias = alias') := by
  have h := nsRun_inv ops {} NamespaceMap.inv_empty
  have hb : ∀ uri alias, (ops.foldl nsStep {}).getAlias uri = some alias ↔
      (ops.foldl nsStep {}).getNamespaceURI alias = some uri := fun u a => (h.bij a u).symm
  refine ⟨hb, ?_, ?_⟩
  · intro u u' a h1 h2
    rw [hb] at h1 h2; rw [h1] at h2; simpa using h2
  · intro u a a' h1 h2
    rw [← hb] at h1 h2; rw [h1] at h2; simpa using h2

/-- C08: an alias once assigned is never reassigned, whatever happens afterwards. -/
theorem c08_never_reassigned (before after : List NsOp) (uri : Str) (alias : Alias)
    (h : (before.foldl nsStep {}).getAlias uri = some alias) :
    ((before ++ after).foldl nsStep {}).getAlias uri = some alias ∧
    ((before ++ after).foldl nsStep {}).getNamespaceURI alias = some uri := by
  have hi := nsRun_inv before {} NamespaceMap.inv_empty
  rw [List.foldl_append]
  have hk := nsRun_keeps after _ hi
  exact ⟨hk.2 _ _ h, hk.1 _ _ ((hi.bij _ _).2 h)⟩

/-- C08: exactly when `addAlias` succeeds.  (When it does not, it raises before changing the map.) -/
theorem c08_addAlias_iff (ops : List NsOp) (uri : Str) (alias : Alias) (imp : Bool) :
    let m := ops.foldl nsStep {}
    (∃ m', m.addAlias uri alias imp = .ok m' ∧ m'.getAlias uri = some alias) ↔
      (∀ s, alias = .name s → s ∉ OPENID_PROTOCOL_FIELDS ∧ '.' ∉ s) ∧
      (m.getNamespaceURI alias = none ∨ m.getNamespaceURI alias = some uri) ∧
      (m.getAlias uri = none ∨ m.getAlias uri = some alias) ∧ m.isImplicit uri = false := by
  intro m
  have hok : NamespaceMap.okAlias alias = true ↔
      (∀ s, alias = .name s → s ∉ OPENID_PROTOCOL_FIELDS ∧ '.' ∉ s) := by
    cases alias <;> simp [NamespaceMap.okAlias]
  rw [← hok]
  constructor
  · rintro ⟨m', h, -⟩
    obtain ⟨h1, h2, h3, h4, -⟩ := NamespaceMap.addAlias_ok m uri alias imp m' h
    exact ⟨h1, h2, h3, by simpa [NamespaceMap.isImplicit] using h4⟩
  · rintro ⟨h1, h2, h3, h4⟩
    exact ⟨_, NamespaceMap.addAlias_of m uri alias imp h1 h2 h3 (by simpa [NamespaceMap.isImplicit] using h4),
      by simp [NamespaceMap.getAlias, Dict.get?_set]⟩

/-- C08: `add` always terminates with an alias.  A known URI keeps its alias and nothing changes; a new
    URI gets the first `extN` not yet in use, and every other entry stays. -/
theorem c08_add (ops : List NsOp) (uri : Str) :
    let m := ops.foldl nsStep {}
    ∃ m', m.add uri = .ok m' ∧
      ((m.getAlias uri).isSome = true → m' = m) ∧
      (m.getAlias uri = none → ∃ n, m'.getAlias uri = some (.name (t!"ext" ++ natToStr n)) ∧
        m.getNamespaceURI (.name (t!"ext" ++ natToStr n)) = none ∧
        (∀ k, k < n → (m.getNamespaceURI (.name (t!"ext" ++ natToStr k))).isSome = true) ∧
        ∀ uri', uri' ≠ uri → m'.getAlias uri' = m.getAlias uri') := by
  intro m
  have hi := nsRun_inv ops {} NamespaceMap.inv_empty
  rcases NamespaceMap.add_total m hi uri with ⟨a, h1, e⟩ | ⟨h0, j, m', h1, h2, e1, e2⟩
  · refine ⟨m, e, fun _ => rfl, fun hn => ?_⟩
    rw [NamespaceMap.getAlias, h1] at hn; simp at hn
  · refine ⟨m', e2, fun hs => ?_, fun _ => ⟨j, ?_, h1, h2, ?_⟩⟩
    · rw [NamespaceMap.getAlias, h0] at hs; simp at hs
    · obtain ⟨-, -, -, -, rfl⟩ := NamespaceMap.addAlias_ok _ _ _ _ _ e1
      simp [NamespaceMap.getAlias, Dict.get?_set]
    · intro u' hu'
      obtain ⟨-, -, -, -, rfl⟩ := NamespaceMap.addAlias_ok _ _ _ _ _ e1
      simp [NamespaceMap.getAlias, Dict.get?_set, Ne.symm hu']

/-- a history with a taken alias, a failing addition and a generated alias -/
def sampleOps : List NsOp :=
  [.alias t!"u" (.name t!"ext0") false, .alias t!"v" (.name t!"ext0") false, .add t!"w", .add t!"u",
   .alias t!"x" (.name t!"mode") false, .alias t!"y" .null true, .alias t!"y" .null false]

example : (sampleOps.foldl nsStep {}).nsToAlias =
    [(t!"u", .name t!"ext0"), (t!"w", .name t!"ext1"), (t!"y", .null)] := by decide
example : ((sampleOps.foldl nsStep {}).add t!"v").toOption.map (·.getAlias t!"v") =
    some (some (.name t!"ext2")) := by decide

/-! ## C09 -/

/-- C09: for every message and every history of `setArg`, `delArg` and `updateArgs`, `getArg` is lookup
    in a plain map from (namespace, key) to value, updated by the same history.  In particular the
    value last set is returned, nothing else changes, and namespaces do not leak into each other. -/
theorem c09_history (reg : Dict Str Str) (m : Msg) (hm : Built reg m) (ops : List MsgOp)
    (ns : Ns) (key : Str) :
    (∀ n, resolve m.getOpenIDNamespace ns = some n →
      (ops.foldl msgStep m).getArg ns key =
        .ok (ops.foldl (mapStep m.getOpenIDNamespace) (fun n k => m.args.get? (n, k)) n key)) ∧
    (resolve m.getOpenIDNamespace ns = none →
      ∃ e, (ops.foldl msgStep m).getArg ns key = .error e ∧
        (e = .undefinedOpenIDNamespace ∨ e = .typeError)) := by
  have h := abs_run ops m m.getOpenIDNamespace _ ⟨minv_built reg m hm, rfl, fun _ _ => rfl⟩
  have hr := resolve_fixNS (ops.foldl msgStep m) ns
  rw [h.2.1] at hr
  constructor
  · intro n hn
    rw [hr] at hn
    rw [Msg.getArg]
    cases hf : (ops.foldl msgStep m).fixNS ns with
    | error e => rw [hf] at hn; simp [Except.toOption] at hn
    | ok n' =>
      rw [hf] at hn; simp [Except.toOption] at hn; subst hn
      simp only [ok_bind, pure_eq_ok, Except.ok.injEq]
      exact h.2.2 _ _
  · intro hn
    rw [hr] at hn
    rw [Msg.getArg]
    cases hf : (ops.foldl msgStep m).fixNS ns with
    | ok n' => rw [hf] at hn; simp [Except.toOption] at hn
    | error e =>
      refine ⟨e, rfl, ?_⟩
      cases ns with
      | openid => simp only [Msg.fixNS] at hf; split at hf <;> simp at hf; exact .inl hf.symm
      | bare => simp [Msg.fixNS] at hf
      | uri u => simp only [Msg.fixNS] at hf; split at hf <;> simp at hf
      | other => simp [Msg.fixNS] at hf; exact .inr hf.symm

/-- C09, starting from a new message: the map starts empty. -/
theorem c09_history_new (u : Option Str) (i : Option Bool) (m : Msg) (hm : Msg.new u i = .ok m)
    (ops : List MsgOp) (ns : Ns) (n : NsKey) (hn : resolve u ns = some n) (key : Str) :
    (ops.foldl msgStep m).getArg ns key = .ok (ops.foldl (mapStep u) (fun _ _ => none) n key) := by
  have hargs : m.args = [] ∧ m.getOpenIDNamespace = u := by
    cases u with
    | none => simp [Msg.new] at hm; subst hm; exact ⟨rfl, rfl⟩
    | some u =>
      simp only [Msg.new, Msg.setOpenIDNamespace] at hm
      split at hm
      · obtain ⟨nm, g1, g2⟩ := bind_eq_ok.1 hm
        obtain ⟨-, -, -, -, rfl⟩ := NamespaceMap.addAlias_ok _ _ _ _ _ g1
        simp only [pure_eq_ok, Except.ok.injEq] at g2
        subst g2
        exact ⟨rfl, by simp [Msg.getOpenIDNamespace, NamespaceMap.getNamespaceURI, Dict.set, Dict.get?]⟩
      · simp at hm
  have h := (c09_history [] m (.new u i m hm) ops ns key).1 n (by rw [hargs.2]; exact hn)
  rw [h, hargs.2, hargs.1]
  rfl

/-- a history with an overwritten, a deleted and an isolated argument -/
def sampleHistory : List MsgOp :=
  [.set .openid t!"k" t!"1", .set .bare t!"k" t!"2", .set (.uri t!"x") t!"k" t!"3",
   .set .openid t!"k" t!"4", .del .bare t!"k", .del .bare t!"k", .update (.uri t!"x") [(t!"k", t!"5")],
   .set .other t!"k" t!"6"]

example : ∃ m, Msg.new (some OPENID2_NS) = .ok m ∧
    (sampleHistory.foldl msgStep m).getArg .openid t!"k" = .ok (some t!"4") ∧
    (sampleHistory.foldl msgStep m).getArg .bare t!"k" = .ok none ∧
    (sampleHistory.foldl msgStep m).getArg (.uri t!"x") t!"k" = .ok (some t!"5") :=
  ⟨_, rfl, by decide, by decide, by decide⟩

/-- C09: setting one argument is seen there and nowhere else. -/
theorem c09_set_isolated (reg : Dict Str Str) (m : Msg) (hm : Built reg m) (ns : Ns) (n : NsKey)
    (hn : resolve m.getOpenIDNamespace ns = some n) (key value : Str) :
    ∃ m', m.setArg ns key value = .ok m' ∧ m'.getOpenIDNamespace = m.getOpenIDNamespace ∧
      m'.getArg ns key = .ok (some value) ∧
      ∀ ns' key', (resolve m.getOpenIDNamespace ns' ≠ some n ∨ key' ≠ key) →
        m'.getArg ns' key' = m.getArg ns' key' := by
  have hi := minv_built reg m hm
  have hr := resolve_fixNS m
  have hf : m.fixNS ns = .ok n := by
    rw [hr] at hn
    cases h : m.fixNS ns with
    | error e => rw [h] at hn; simp [Except.toOption] at hn
    | ok n' => rw [h] at hn; simp [Except.toOption] at hn; rw [hn]
  obtain ⟨m', e1, e2, e3, -, -, e6, -⟩ := setArg_ok m hi ns key value n hf
  refine ⟨m', e1, e6, ?_, ?_⟩
  · rw [Msg.getArg, fixNS_same m m' e6, hf]
    simp [e2, Dict.get?_set]
  · intro ns' key' hne
    rw [Msg.getArg, Msg.getArg, fixNS_same m m' e6]
    cases h : m.fixNS ns' with
    | error e => rfl
    | ok n' =>
      simp only [ok_bind, pure_eq_ok, Except.ok.injEq]
      rw [e2, Dict.get?_set, if_neg]
      intro he
      simp at he
      rw [hr, h] at hne
      rcases hne with hne | hne
      · exact hne (by simp [Except.toOption, he.1])
      · exact hne he.2.symm

/-- C09: `getArgs` lists exactly the arguments of a namespace. -/
theorem c09_getArgs (reg : Dict Str Str) (m : Msg) (hm : Built reg m) (ns : Ns) (d : Dict Str Str)
    (h : m.getArgs ns = .ok d) : Dict.WF d ∧ ∀ key, m.getArg ns key = .ok (d.get? key) := by
  have hi := minv_built reg m hm
  rw [Msg.getArgs] at h
  obtain ⟨n, h1, h2⟩ := bind_eq_ok.1 h
  simp only [pure_eq_ok, Except.ok.injEq] at h2
  have hsub : ∀ (l : Dict (NsKey × Str) Str), Dict.WF l → Dict.WF (l.filterMap fun p =>
      if p.1.1 = n then some (p.1.2, p.2) else none) ∧
      ∀ k, Dict.get? (l.filterMap fun p => if p.1.1 = n then some (p.1.2, p.2) else none) k =
        Dict.get? l (n, k) := by
    intro l
    induction l with
    | nil => intro _; exact ⟨Dict.WF_nil, fun _ => rfl⟩
    | cons p r ih =>
      obtain ⟨⟨n', k'⟩, v⟩ := p
      intro hw
      rw [Dict.WF, Dict.keys, List.map_cons, List.nodup_cons] at hw
      obtain ⟨i1, i2⟩ := ih hw.2
      by_cases hn : n' = n
      · subst hn
        simp only [List.filterMap_cons, ↓reduceIte]
        constructor
        · rw [Dict.WF, Dict.keys, List.map_cons, List.nodup_cons]
          refine ⟨?_, i1⟩
          intro hmem
          have : k' ∈ Dict.keys (r.filterMap fun p => if p.1.1 = n' then some (p.1.2, p.2) else none) := hmem
          rw [Dict.mem_keys_iff, i2, ← Dict.mem_keys_iff] at this
          exact hw.1 this
        · intro k
          rw [Dict.get?_cons, Dict.get?_cons, i2]
          by_cases hk : k' = k <;> simp [hk]
      · simp only [List.filterMap_cons, hn, ↓reduceIte]
        refine ⟨i1, fun k => ?_⟩
        rw [i2, Dict.get?_cons, if_neg]
        simp [hn]
  obtain ⟨s1, s2⟩ := hsub m.args hi.wf
  rw [Dict.ofPairs_eq_self _ s1] at h2
  subst h2
  refine ⟨s1, fun key => ?_⟩
  rw [Msg.getArg, h1]
  simp only [ok_bind, pure_eq_ok, Except.ok.injEq]
  exact (s2 key).symm

/-- C09: every argument of every message is sent: `toPostArgs` never meets an argument whose namespace
    has no alias (the code would file it under the key None). -/
theorem c09_every_arg_has_key (reg : Dict Str Str) (m : Msg) (hm : Built reg m) (ns : Ns) (key value : Str)
    (h : m.getArg ns key = .ok (some value)) : ∃ k, m.getKey ns key = .ok (some k) := by
  have hi := minv_built reg m hm
  rw [Msg.getArg] at h
  obtain ⟨n, h1, h2⟩ := bind_eq_ok.1 h
  simp only [pure_eq_ok, Except.ok.injEq] at h2
  have := keyOf_isSome m hi _ (Dict.get?_mem _ _ _ h2)
  obtain ⟨k, hk⟩ := Option.isSome_iff_exists.1 this
  exact ⟨k, by rw [Msg.getKey, h1]; simp; exact hk⟩

example : ∃ m d, Msg.new (some OPENID2_NS) = .ok m ∧
    (sampleHistory.foldl msgStep m).getArgs (.uri t!"x") = .ok d ∧ d = [(t!"k", t!"5")] ∧
    (sampleHistory.foldl msgStep m).getKey (.uri t!"x") t!"k" = .ok (some t!"openid.ext0.k") :=
  ⟨_, _, rfl, rfl, by decide, by decide⟩

end Props
