import Verif.Lemmas.Pape
import Verif.Props.Transport
/-! # C47: policy requests -/

namespace Props
open Py Message Spec Association Pape

/-- C47: Asking for a level: what becomes of the aliases, and the level is on the list once. -/
theorem c47_add_level (r : Request) (hr : RequestOk r) (u : Str) (alias : Option Str) :
    (∃ m, Aliased r.aliases u alias (.ok m) ∧
      r.addAuthLevel u alias = .ok ⟨r.policies, r.maxAge, once r.levelTypes u, m⟩) ∨
    ∃ e, Aliased r.aliases u alias (.error e) ∧ r.addAuthLevel u alias = .error e := by
  have h := addAlias_spec hr.aliases.wf u alias
  rw [Request.addAuthLevel]
  cases hg : addAlias r.aliases u alias with
  | ok m => left; rw [hg] at h; exact ⟨m, h, by rw [addOnce_eq]; rfl⟩
  | error e => right; rw [hg] at h; exact ⟨e, h, rfl⟩

/-- C47: Setting a level: what becomes of the aliases, and the level has its value. -/
theorem c47_set_level (r : Response) (hr : ResponseOk r) (u l : Str) (alias : Option Str) :
    (∃ m r', Aliased r.aliases u alias (.ok m) ∧ r.setAuthLevel u l alias = .ok r' ∧ r'.policies = r.policies ∧
      r'.authTime = r.authTime ∧ r'.aliases = m ∧ r'.getAuthLevel u = .ok l ∧ ∀ w, w ≠ u → r'.getAuthLevel w = r.getAuthLevel w) ∨
    ∃ e, Aliased r.aliases u alias (.error e) ∧ r.setAuthLevel u l alias = .error e := by
  have h := addAlias_spec hr.aliases.wf u alias
  rw [Response.setAuthLevel]
  cases hg : addAlias r.aliases u alias with
  | ok m =>
    left; rw [hg] at h
    refine ⟨m, _, h, rfl, rfl, rfl, rfl, ?_, ?_⟩
    · simp [Response.getAuthLevel, Dict.get?_set]
    · intro w hw
      simp [Response.getAuthLevel, Dict.get?_set, Ne.symm hw]
  | error e => right; rw [hg] at h; exact ⟨e, h, rfl⟩

theorem requestOk_new (policies : List Str) (maxAge : Option Int) : RequestOk { policies := policies, maxAge := maxAge } :=
  ⟨aliasesOk_default, .nil, by simp⟩

theorem responseOk_new (policies : List Str) (time : Option Str) : ResponseOk { policies := policies, authTime := time } :=
  ⟨aliasesOk_default, Dict.WF_nil, by simp⟩

/-- C47: Whatever is done with a request, every level on its list has an alias and is on it once, the well-known aliases
    stand for what they are known for, and no policy comes twice. -/
theorem c47_request_history (r : Request) (hr : RequestOk r) (ops : List RequestOp) :
    RequestOk (ops.foldl requestStep r) ∧ (r.policies.Nodup → (ops.foldl requestStep r).policies.Nodup) := by
  induction ops generalizing r with
  | nil => exact ⟨hr, id⟩
  | cons op ops ih =>
    have hstep : RequestOk (requestStep r op) ∧ (r.policies.Nodup → (requestStep r op).policies.Nodup) := by
      cases op with
      | policy u => exact ⟨⟨hr.aliases, hr.once, hr.named⟩, fun h => addOnce_nodup h u⟩
      | level u a =>
        simp only [requestStep]
        cases hg : r.addAuthLevel u a with
        | error e => exact ⟨hr, id⟩
        | ok r' =>
          refine ⟨requestOk_level hr hg, ?_⟩
          rw [Request.addAuthLevel] at hg
          obtain ⟨m, -, hg⟩ := bind_eq_ok.1 hg
          cases hg
          exact id
    obtain ⟨h1, h2⟩ := ih _ hstep.1
    exact ⟨h1, fun h => h2 (hstep.2 h)⟩

/-- C47: Whatever is done with a response, every level has an alias, and the well-known aliases stand for what they are
    known for; the policy that stands for no policy cannot be added. -/
theorem c47_response_history (r : Response) (hr : ResponseOk r) (ops : List ResponseOp) :
    ResponseOk (ops.foldl responseStep r) ∧ (r.policies.Nodup → (ops.foldl responseStep r).policies.Nodup) ∧
      (AUTH_NONE ∉ r.policies → AUTH_NONE ∉ (ops.foldl responseStep r).policies) := by
  induction ops generalizing r with
  | nil => exact ⟨hr, id, id⟩
  | cons op ops ih =>
    have hstep : ResponseOk (responseStep r op) ∧ (r.policies.Nodup → (responseStep r op).policies.Nodup) ∧
        (AUTH_NONE ∉ r.policies → AUTH_NONE ∉ (responseStep r op).policies) := by
      cases op with
      | policy u =>
        simp only [responseStep, Response.addPolicyURI]
        by_cases e : u = AUTH_NONE
        · rw [if_pos e]; exact ⟨hr, id, id⟩
        · rw [if_neg e]
          refine ⟨⟨hr.aliases, hr.wf, hr.named⟩, fun h => addOnce_nodup h u, ?_⟩
          intro h h'
          rcases addOnce_mem.1 h' with h' | h'
          · exact h h'
          · exact e h'.symm
      | level u l a =>
        simp only [responseStep]
        cases hg : r.setAuthLevel u l a with
        | error e => exact ⟨hr, id, id⟩
        | ok r' =>
          refine ⟨responseOk_level hr hg, ?_⟩
          rw [Response.setAuthLevel] at hg
          obtain ⟨m, -, hg⟩ := bind_eq_ok.1 hg
          cases hg
          exact ⟨id, id⟩
    obtain ⟨h1, h2, h3⟩ := ih _ hstep.1
    exact ⟨h1, fun h => h2 (hstep.2.1 h), fun h => h3 (hstep.2.2 h)⟩

/-- C47: A new request has the policies, the age and the levels that are given, each level once; it cannot be made if
    there are too many levels. -/
theorem c47_request_new (policies : List Str) (maxAge : Option Int) (types : List Str) :
    (∃ r, Request.new policies maxAge types = .ok r ∧ RequestOk r ∧ r.policies = policies ∧ r.maxAge = maxAge ∧
      r.levelTypes = types.eraseDups) ∨
    Request.new policies maxAge types = .error .runtimeError := by
  suffices h : ∀ (r : Request), RequestOk r → (∃ r', r.addAll types = .ok r' ∧ RequestOk r' ∧ r'.policies = r.policies ∧
      r'.maxAge = r.maxAge ∧ r'.levelTypes = types.foldl addOnce r.levelTypes) ∨ r.addAll types = .error .runtimeError by
    rcases h _ (requestOk_new policies maxAge) with ⟨r', h1, h2, h3, h4, h5⟩ | h1
    · left; exact ⟨r', h1, h2, h3, h4, by rw [h5, foldl_addOnce_nil]⟩
    · right; exact h1
  induction types with
  | nil => intro r hr; left; exact ⟨r, rfl, hr, rfl, rfl, rfl⟩
  | cons u us ih =>
    intro r hr
    rw [Request.addAll]
    rcases c47_add_level r hr u none with ⟨m, -, h2⟩ | ⟨e, h1, h2⟩
    · rcases ih _ (requestOk_level hr h2) with ⟨r', g1, g2, g3, g4, g5⟩ | g1
      · left
        refine ⟨r', by rw [h2]; exact g1, g2, g3, g4, ?_⟩
        rw [g5, List.foldl_cons, addOnce_eq]
      · right; rw [h2]; exact g1
    · right
      rw [h2]
      cases h1 with
      | clash a w h => cases h
      | full => rfl

/-- C47: A request is true exactly if it asks for something. -/
theorem c47_truth (r : Request) : r.truth = true ↔ r.policies ≠ [] ∨ (∃ n, r.maxAge = some n) ∨ r.levelTypes ≠ [] := by
  simp [Request.truth, Option.isSome_iff_exists, or_assoc]

/-- C47: The preferred types are those of the supported ones that the request has, in the order of the supported ones. -/
theorem c47_preferred (r : Request) (supported : List Str) :
    (∀ p, p ∈ r.preferredTypes supported ↔ p ∈ supported ∧ p ∈ r.policies) ∧ (r.preferredTypes supported).Sublist supported ∧
    ∀ p ∈ r.policies, (r.preferredTypes supported).count p = supported.count p := by
  refine ⟨?_, List.filter_sublist, ?_⟩
  · intro p; simp [Request.preferredTypes]
  · intro p hp
    rw [Request.preferredTypes, List.count_filter]
    simpa using hp

/-- C47: The arguments of a request are exactly its policies, its age, and its levels with the aliases that it has for
    them. -/
theorem c47_request_args (r : Request) (hr : RequestOk r) :
    ∃ (args : Dict Str Str) (name : Str → Str), r.getExtensionArgs = .ok args ∧ Dict.WF args ∧
      (∀ u ∈ r.levelTypes, r.aliases.get? (name u) = some u) ∧ RequestArgs args name r := by
  have hg : r.getExtensionArgs = .ok (Dict.ofPairs ([(t!"preferred_auth_policies", join t!" " r.policies)] ++
        (match r.maxAge with
          | some n => [(t!"max_auth_age", intToStr n)]
          | none => []) ++
        (if r.levelTypes.isEmpty then [] else
          (r.levelTypes.map (fun u => (nameFor r.aliases u, u))).map (fun p => (nsKey p.1, p.2)) ++
            [(t!"preferred_auth_level_types", join t!" " ((r.levelTypes.map (fun u => (nameFor r.aliases u, u))).map (·.1)))]))) := by
    rw [Request.getExtensionArgs, aliased_ok hr.named]; rfl
  refine ⟨_, nameFor r.aliases, hg, Dict.WF_ofPairs _, ?_, ?_⟩
  · intro u hu
    obtain ⟨a, ha⟩ := hr.named u hu
    exact nameFor_get hr.aliases.wf ha
  · have hname : ∀ u ∈ r.levelTypes, r.aliases.get? (nameFor r.aliases u) = some u := by
      intro u hu
      obtain ⟨a, ha⟩ := hr.named u hu
      exact nameFor_get hr.aliases.wf ha
    have hmem : ∀ k v, (k, v) ∈ ([(t!"preferred_auth_policies", join t!" " r.policies)] ++
        (match r.maxAge with
          | some n => [(t!"max_auth_age", intToStr n)]
          | none => []) ++
        (if r.levelTypes.isEmpty then [] else
          (r.levelTypes.map (fun u => (nameFor r.aliases u, u))).map (fun p => (nsKey p.1, p.2)) ++
            [(t!"preferred_auth_level_types", join t!" " ((r.levelTypes.map (fun u => (nameFor r.aliases u, u))).map (·.1)))]) :
            List (Str × Str)) ↔
        (k = t!"preferred_auth_policies" ∧ v = join t!" " r.policies ∨
        (k = t!"max_auth_age" ∧ ∃ n, r.maxAge = some n ∧ v = intToStr n) ∨
        (∃ u ∈ r.levelTypes, k = t!"auth_level.ns." ++ nameFor r.aliases u ∧ v = u) ∨
        (k = t!"preferred_auth_level_types" ∧ r.levelTypes ≠ [] ∧ v = join t!" " (r.levelTypes.map (nameFor r.aliases)))) := by
      intro k v
      have hmm : (r.levelTypes.map (fun u => (nameFor r.aliases u, u))).map (·.1) = r.levelTypes.map (nameFor r.aliases) := by
        simp [List.map_map, Function.comp_def]
      rw [hmm, List.mem_append, List.mem_append, List.mem_singleton, Prod.mk.injEq, or_assoc]
      refine or_congr Iff.rfl (or_congr ?_ ?_)
      · cases r.maxAge with
        | none => simp
        | some n => simp
      · by_cases h0 : r.levelTypes = []
        · rw [h0]; simp
        · rw [if_neg (by simpa using h0), List.mem_append, List.mem_singleton, Prod.mk.injEq]
          refine or_congr ?_ ?_
          · simp only [List.map_map, List.mem_map, Function.comp_def, nsKey, Prod.mk.injEq]
            constructor
            · rintro ⟨u, hu, h1, h2⟩; exact ⟨u, hu, h1.symm, h2.symm⟩
            · rintro ⟨u, hu, h1, h2⟩; exact ⟨u, hu, h1.symm, h2.symm⟩
          · simp [h0]
    intro k v
    rw [Ax.ofPairs_functional]
    · exact hmem k v
    · intro k v w hv hw
      have d1 : ∀ a, (t!"preferred_auth_policies" : Str) ≠ t!"auth_level.ns." ++ a := fun a => by simp
      have d2 : ∀ a, (t!"max_auth_age" : Str) ≠ t!"auth_level.ns." ++ a := fun a => by simp
      have d3 : ∀ a, (t!"preferred_auth_level_types" : Str) ≠ t!"auth_level.ns." ++ a := fun a => by simp
      have d4 : (t!"preferred_auth_policies" : Str) ≠ t!"max_auth_age" := by decide
      have d5 : (t!"preferred_auth_policies" : Str) ≠ t!"preferred_auth_level_types" := by decide
      have d6 : (t!"max_auth_age" : Str) ≠ t!"preferred_auth_level_types" := by decide
      rcases (hmem k v).1 hv with ⟨rfl, rfl⟩ | ⟨rfl, n, hn, rfl⟩ | ⟨u, hu, rfl, rfl⟩ | ⟨rfl, h0, rfl⟩ <;>
      rcases (hmem _ w).1 hw with ⟨e, rfl⟩ | ⟨e, n', hn', rfl⟩ | ⟨u', hu', e, rfl⟩ | ⟨e, h0', rfl⟩ <;>
      first
        | rfl
        | exact absurd e (d1 _) | exact absurd e (d2 _) | exact absurd e (d3 _) | exact absurd e d4 | exact absurd e d5 | exact absurd e d6
        | exact absurd e.symm (d1 _) | exact absurd e.symm (d2 _) | exact absurd e.symm (d3 _) | exact absurd e.symm d4
        | exact absurd e.symm d5 | exact absurd e.symm d6
        | skip
      · rw [hn] at hn'; cases hn'; rfl
      · have e' := List.append_cancel_left e
        have h1 := hname _ hu
        rw [e', hname _ hu'] at h1
        cases h1; rfl

theorem parseAge_spec (X : ExtraDigits) (args : Dict Str Str) (strict : Bool) :
    (∃ o, parseAge X (args.get? t!"max_auth_age") strict = .ok o ∧
      (∀ n, o = some n ↔ ∃ s, s ≠ [] ∧ args.get? t!"max_auth_age" = some s ∧ parseInt X s = .ok n) ∧
      (strict = true → ∀ s, args.get? t!"max_auth_age" = some s → s ≠ [] → ∃ n, parseInt X s = .ok n)) ∨
    (parseAge X (args.get? t!"max_auth_age") strict = .error .valueError ∧ strict = true ∧
      ∃ s, args.get? t!"max_auth_age" = some s ∧ s ≠ [] ∧ ∀ n, parseInt X s ≠ .ok n) := by
  unfold parseAge
  match args.get? t!"max_auth_age" with
  | none => left; exact ⟨none, rfl, by simp, by simp⟩
  | some [] => left; exact ⟨none, rfl, by intro n; simp; intro s hs e; exact absurd e hs, by intro _ s h; cases h; simp⟩
  | some (c :: cs) =>
    simp only
    cases hp : parseInt X (c :: cs) with
    | ok n =>
      left
      refine ⟨some n, rfl, ?_, ?_⟩
      · intro n'
        constructor
        · intro e; cases e; exact ⟨c :: cs, by simp, rfl, hp⟩
        · rintro ⟨s, -, e, h⟩; cases e; rw [hp] at h; cases h; rfl
      · intro _ s e _; cases e; exact ⟨n, hp⟩
    | error e =>
      have := parseInt_error X _ e hp
      subst this
      cases strict with
      | true =>
        right
        refine ⟨rfl, rfl, c :: cs, rfl, by simp, ?_⟩
        intro n h; rw [hp] at h; cases h
      | false =>
        left
        refine ⟨none, rfl, ?_, by simp⟩
        intro n
        constructor
        · intro e; cases e
        · rintro ⟨s, -, e, h⟩; cases e; rw [hp] at h; cases h

/-- C47: Parsing arguments into a new request: exactly when it works, what the request asks for then, and what is raised
    otherwise. -/
theorem c47_request_parse (X : ExtraDigits) (args : Dict Str Str) (openid1 strict : Bool) :
    let listed := wordsIn (args.get? t!"preferred_auth_level_types")
    let Fine := (∀ a ∈ listed, ∀ u, standsFor args openid1 a = some u → ¬ Misused a u) ∧
      (strict = true → (∀ a ∈ listed, standsFor args openid1 a ≠ none) ∧
        ∀ s, args.get? t!"max_auth_age" = some s → s ≠ [] → ∃ n, parseInt X s = .ok n)
    (Fine → ∃ r, Request.parseExtensionArgs X {} args openid1 strict = .ok r) ∧
    (∀ r, Request.parseExtensionArgs X {} args openid1 strict = .ok r → Fine ∧ RequestOk r ∧
      r.policies = (parts (args.get? t!"preferred_auth_policies")).eraseDups ∧
      (∀ n, r.maxAge = some n ↔ ∃ s, s ≠ [] ∧ args.get? t!"max_auth_age" = some s ∧ parseInt X s = .ok n) ∧
      r.levelTypes = (listed.filterMap (standsFor args openid1)).eraseDups ∧
      (∀ a ∈ listed, ∀ u, standsFor args openid1 a = some u → r.aliases.get? a = some u)) ∧
    ∀ e, Request.parseExtensionArgs X {} args openid1 strict = .error e →
      e = .keyError ∧ (∃ a ∈ listed, ∃ u, standsFor args openid1 a = some u ∧ Misused a u) ∨
      e = .valueError ∧ strict = true ∧ ((∃ a ∈ listed, standsFor args openid1 a = none) ∨
        ∃ s, args.get? t!"max_auth_age" = some s ∧ s ≠ [] ∧ ∀ n, parseInt X s ≠ .ok n) := by
  intro listed Fine
  have hage := parseAge_spec X args strict
  rw [Request.parseExtensionArgs]
  rcases hage with ⟨o, h1, h2, h3⟩ | ⟨h1, h2, h3⟩
  · simp only [h1, ok_bind, parsePolicies_eq, listedAliases_eq]
    obtain ⟨g1, g2, g3⟩ := parseLevels_spec args openid1 strict listed
      { policies := (parts (args.get? t!"preferred_auth_policies")).eraseDups, maxAge := o } (parsing_default args openid1)
    refine ⟨?_, ?_, ?_⟩
    · intro hf
      exact g2 hf.1 fun h => (hf.2 h).1
    · intro r hr
      obtain ⟨k1, k2, k3, k4, k5, k6⟩ := g1 r hr
      have k6' : r.levelTypes = (listed.filterMap (standsFor args openid1)).eraseDups := k6.trans (foldl_addOnce_nil _)
      have hal := parseLevels_aliases args openid1 strict listed _ r (parsing_default args openid1) hr
      refine ⟨⟨k1, fun h => ⟨k2 h, h3 h⟩⟩, ⟨k5.ok, ?_, ?_⟩, k3, fun n => by rw [k4]; exact h2 n, k6', hal.1⟩
      · rw [k6, ← List.append_nil (List.foldl _ _ _), List.append_nil]
        have : ∀ (l acc : List Str), acc.Nodup → (l.foldl addOnce acc).Nodup := by
          intro l
          induction l with
          | nil => exact fun _ h => h
          | cons x l ih => exact fun acc h => ih _ (addOnce_nodup h x)
        exact this _ _ .nil
      · intro u hu
        rw [k6', List.mem_eraseDups, List.mem_filterMap] at hu
        obtain ⟨a, ha, hs⟩ := hu
        exact ⟨a, hal.1 a ha u hs⟩
    · intro e he
      rcases g3 e he with h | ⟨q1, q2, q3⟩
      · exact .inl h
      · exact .inr ⟨q1, q2, .inl q3⟩
  · simp only [h1, error_bind]
    refine ⟨?_, fun r h => by (cases h), ?_⟩
    · intro hf
      obtain ⟨s, q1, q2, q3⟩ := h3
      obtain ⟨n, hn⟩ := (hf.2 h2).2 s q1 q2
      exact absurd hn (q3 n)
    · intro e h
      cases h
      exact .inr ⟨rfl, h2, .inr h3⟩

/-- C47: Parsing arguments into a request that is in use: its policies and age are replaced by those of the arguments, and
    its levels stay, in front of those of the arguments. -/
theorem c47_request_parse_again (X : ExtraDigits) (r0 r : Request) (args : Dict Str Str) (openid1 strict : Bool)
    (h : Request.parseExtensionArgs X r0 args openid1 strict = .ok r) :
    r.policies = (parts (args.get? t!"preferred_auth_policies")).eraseDups ∧
    (∀ n, r.maxAge = some n ↔ ∃ s, s ≠ [] ∧ args.get? t!"max_auth_age" = some s ∧ parseInt X s = .ok n) ∧
    ∃ more, r.levelTypes = r0.levelTypes ++ more ∧ ∀ u, u ∈ r0.levelTypes ++ more ↔ u ∈ r0.levelTypes ∨
      ∃ a ∈ wordsIn (args.get? t!"preferred_auth_level_types"), standsFor args openid1 a = some u := by
  have key : ∀ (l : List Str) (r r' : Request), r.parseLevels args openid1 strict l = .ok r' →
      r'.policies = r.policies ∧ r'.maxAge = r.maxAge ∧ ∃ more, r'.levelTypes = r.levelTypes ++ more ∧
        ∀ u, u ∈ r.levelTypes ++ more ↔ u ∈ r.levelTypes ∨ ∃ a ∈ l, standsFor args openid1 a = some u := by
    intro l
    induction l with
    | nil => intro r r' h; cases h; exact ⟨rfl, rfl, [], by simp, by simp⟩
    | cons a l ih =>
      intro r r' h
      rw [Request.parseLevels, standsFor_eq] at h
      split at h
      · next hs =>
        split at h
        · cases h
        · obtain ⟨h1, h2, m, h3, h4⟩ := ih _ _ h
          refine ⟨h1, h2, m, h3, fun u => (h4 u).trans ?_⟩
          simp [hs]
      · next u0 hs =>
        obtain ⟨r1, g1, g2⟩ := bind_eq_ok.1 h
        rw [Request.addAuthLevel] at g1
        obtain ⟨m0, g3, g4⟩ := bind_eq_ok.1 g1
        cases g4
        obtain ⟨h1, h2, m, h3, h4⟩ := ih _ _ g2
        simp only at h1 h2 h3 h4
        obtain ⟨m1, hm1, hu⟩ : ∃ m1, addOnce r.levelTypes u0 = r.levelTypes ++ m1 ∧
            ∀ u, u ∈ addOnce r.levelTypes u0 ↔ u ∈ r.levelTypes ∨ u = u0 := by
          rw [addOnce]
          split
          · next hm => exact ⟨[], by simp, fun u => by constructor; · exact .inl
                                                       · rintro (h | rfl); · exact h
                                                         · simpa using hm⟩
          · exact ⟨[u0], rfl, by simp⟩
        refine ⟨h1, h2, m1 ++ m, by rw [h3, hm1, List.append_assoc], fun u => ?_⟩
        rw [← List.append_assoc, ← hm1, h4 u, hu]
        simp only [List.mem_cons, exists_eq_or_imp, hs, Option.some.injEq]
        rw [or_assoc]
        constructor
        · rintro (h | rfl | h)
          · exact .inl h
          · exact .inr (.inl rfl)
          · exact .inr (.inr h)
        · rintro (h | rfl | h)
          · exact .inl h
          · exact .inr (.inl rfl)
          · exact .inr (.inr h)
  rw [Request.parseExtensionArgs] at h
  obtain ⟨age, h1, h2⟩ := bind_eq_ok.1 h
  rw [listedAliases_eq, parsePolicies_eq] at h2
  obtain ⟨k1, k2, k3⟩ := key _ _ _ h2
  refine ⟨k1, ?_, k3⟩
  rw [k2]
  rcases parseAge_spec X args strict with ⟨o, g1, g2, -⟩ | ⟨g1, -⟩
  · rw [g1] at h1; cases h1; exact g2
  · rw [g1] at h1; cases h1

-- a request in use keeps its levels and takes the rest from the arguments
example : (Request.parseExtensionArgs (fun _ => none)
    { policies := [t!"z"], maxAge := some 3, levelTypes := [t!"http://l/"] } [(t!"max_auth_age", t!"7"), (t!"preferred_auth_policies", t!"a b"),
    (t!"preferred_auth_level_types", t!"x"), (t!"auth_level.ns.x", t!"http://x/")] false true).toOption.map
      (fun r => (r.policies, r.maxAge, r.levelTypes)) =
    some ([t!"a", t!"b"], some 7, [t!"http://l/", t!"http://x/"]) := by decide +kernel

/-- the receiver of the arguments of a request -/
theorem request_of_args (X : ExtraDigits) {r : Request} (hr : RequestOk r) {args : Dict Str Str} {name : Str → Str}
    (hn : ∀ u ∈ r.levelTypes, r.aliases.get? (name u) = some u) (ha : RequestArgs args name r)
    (hp : Listable r.policies) (hnd : r.policies.Nodup) (hw : ∀ a u, u ∈ r.levelTypes → r.aliases.get? a = some u → WordLike a)
    (openid1 strict : Bool) :
    ∃ r', Request.parseExtensionArgs X {} args openid1 strict = .ok r' ∧ RequestOk r' ∧ r'.policies = r.policies ∧
      r'.maxAge = r.maxAge ∧ r'.levelTypes = r.levelTypes ∧ ∀ u ∈ r.levelTypes, r'.aliases.get? (name u) = some u := by
  have hget1 : args.get? t!"preferred_auth_policies" = some (join t!" " r.policies) := (ha _ _).2 (.inl ⟨rfl, rfl⟩)
  have hlist : wordsIn (args.get? t!"preferred_auth_level_types") = r.levelTypes.map name := by
    by_cases h0 : r.levelTypes = []
    · have : args.get? t!"preferred_auth_level_types" = none := by
        cases hg : args.get? t!"preferred_auth_level_types" with
        | none => rfl
        | some v =>
          rcases (ha _ _).1 hg with ⟨e, -⟩ | ⟨e, -⟩ | ⟨u, -, e, -⟩ | ⟨-, e, -⟩
          · exact absurd e (by decide)
          · exact absurd e (by decide)
          · exact absurd e (by simp)
          · exact absurd h0 e
      rw [this, h0]; rfl
    · rw [(ha _ _).2 (.inr (.inr (.inr ⟨rfl, h0, rfl⟩)))]
      rw [wordsIn, Option.getD_some]
      refine words_join ?_
      intro w hw'
      obtain ⟨u, hu, rfl⟩ := List.mem_map.1 hw'
      exact hw _ u hu (hn u hu)
  have hst : ∀ u ∈ r.levelTypes, standsFor args openid1 (name u) = some u := by
    intro u hu
    rw [standsFor, (ha _ u).2 (.inr (.inr (.inl ⟨u, hu, rfl, rfl⟩))), Option.some_or]
  have hfm : (r.levelTypes.map name).filterMap (standsFor args openid1) = r.levelTypes := by
    rw [List.filterMap_map]
    have : ∀ l : List Str, (∀ u ∈ l, standsFor args openid1 (name u) = some u) → l.filterMap (standsFor args openid1 ∘ name) = l := by
      intro l
      induction l with
      | nil => simp
      | cons u l ih =>
        intro h
        rw [List.filterMap_cons_some (f := standsFor args openid1 ∘ name) (b := u) (h u (by simp)), ih fun w hw => h w (by simp [hw])]
    exact this _ hst
  have hmis : ∀ u ∈ r.levelTypes, ¬ Misused (name u) u := by
    intro u hu hm
    have h1 := hn u hu
    rcases hm with ⟨e, h⟩ | ⟨e, h⟩
    · rw [e, hr.aliases.nist] at h1; cases h1; exact h rfl
    · rw [e, hr.aliases.jisa] at h1; cases h1; exact h rfl
  have hagex : ∀ n, r.maxAge = some n ↔ ∃ s, s ≠ [] ∧ args.get? t!"max_auth_age" = some s ∧ parseInt X s = .ok n := by
    intro n
    constructor
    · intro h
      refine ⟨intToStr n, ?_, (ha _ _).2 (.inr (.inl ⟨rfl, n, h, rfl⟩)), parseInt_intToStr X n⟩
      intro e
      have := parseInt_intToStr X n
      rw [e] at this
      cases this
    · rintro ⟨s, -, h, hs⟩
      rcases (ha _ _).1 h with ⟨e, -⟩ | ⟨-, n', hn', rfl⟩ | ⟨u, -, e, -⟩ | ⟨e, -⟩
      · exact absurd e (by decide)
      · rw [parseInt_intToStr] at hs; cases hs; exact hn'
      · exact absurd e (by simp)
      · exact absurd e (by decide)
  obtain ⟨g1, g2, -⟩ := c47_request_parse X args openid1 strict
  rw [hlist] at g1 g2
  obtain ⟨r', hr'⟩ := g1 ⟨by
      intro a ha' u hs
      obtain ⟨w, hw', rfl⟩ := List.mem_map.1 ha'
      rw [hst w hw'] at hs; cases hs
      exact hmis _ hw', fun _ => ⟨by
        intro a ha'
        obtain ⟨w, hw', rfl⟩ := List.mem_map.1 ha'
        rw [hst w hw']; simp, by
        intro s hs hne
        rcases (ha _ _).1 hs with ⟨e, -⟩ | ⟨-, n', hn', rfl⟩ | ⟨u, -, e, -⟩ | ⟨e, -⟩
        · exact absurd e (by decide)
        · exact ⟨n', parseInt_intToStr X n'⟩
        · exact absurd e (by simp)
        · exact absurd e (by decide)⟩⟩
  obtain ⟨-, k1, k2, k3, k4, k5⟩ := g2 r' hr'
  refine ⟨r', hr', k1, ?_, ?_, ?_, ?_⟩
  · rw [k2, hget1, parts_join hp, eraseDups_nodup hnd]
  · cases hm : r.maxAge with
    | some n => exact (k3 n).2 ((hagex n).1 hm)
    | none =>
      cases hm' : r'.maxAge with
      | none => rfl
      | some n => rw [(hagex n).2 ((k3 n).1 hm')] at hm; cases hm
  · rw [k4, hfm, eraseDups_nodup hr.once]
  · intro u hu
    exact k5 (name u) (List.mem_map.2 ⟨u, hu, rfl⟩) u (hst u hu)

/-- C47: Parsing the arguments of a request gives the request back, in either version of the protocol, strictly or not:
    for policies without blanks, and aliases that are words. -/
theorem c47_request_round_trip (X : ExtraDigits) {r : Request} (hr : RequestOk r) (hp : Listable r.policies) (hnd : r.policies.Nodup)
    (hw : ∀ a u, u ∈ r.levelTypes → r.aliases.get? a = some u → WordLike a) :
    ∃ args, r.getExtensionArgs = .ok args ∧ ∀ args' openid1 strict, Dict.Same args' args →
      ∃ r', Request.parseExtensionArgs X {} args' openid1 strict = .ok r' ∧ RequestOk r' ∧ r'.policies = r.policies ∧
        r'.maxAge = r.maxAge ∧ r'.levelTypes = r.levelTypes := by
  obtain ⟨args, name, h1, h2, h3, h4⟩ := c47_request_args r hr
  refine ⟨args, h1, fun args' openid1 strict hs => ?_⟩
  obtain ⟨r', g1, g2, g3, g4, g5, -⟩ := request_of_args X hr h3 (args := args') (fun k v => by rw [hs k]; exact h4 k v) hp hnd hw openid1 strict
  exact ⟨r', g1, g2, g3, g4, g5⟩

/-- C47: A request that is added to a message is the request that the receiver of the message makes of it. -/
theorem c47_request_arrives (X : ExtraDigits) {reg0 reg : Dict Str Str} {m : Msg} {oid : Str}
    (hm : Built reg0 m) (h : Sendable reg m oid) (hu : m.namespaces.getAlias t!"http://specs.openid.net/extensions/pape/1.0" = none)
    (ha : m.namespaces.getNamespaceURI (.name nsAlias) = none) (h1 : m.isOpenID1 = true → reg.get? nsAlias = some t!"http://specs.openid.net/extensions/pape/1.0")
    {r : Request} (hr : RequestOk r) (hp : Listable r.policies) (hnd : r.policies.Nodup)
    (hw : ∀ a u, u ∈ r.levelTypes → r.aliases.get? a = some u → WordLike a) :
    ∃ args m1, r.getExtensionArgs = .ok args ∧ m.addExtension t!"http://specs.openid.net/extensions/pape/1.0" nsAlias args = .ok m1 ∧ ∀ q, Dict.WF q →
      (∀ k, q.get? (t!"openid." ++ k) = m1.toPostArgs.get? (t!"openid." ++ k)) →
      ∃ m' r', fromPostArgs reg q = .ok m' ∧ Request.fromOpenIDRequest X m' = .ok (some r') ∧ r'.policies = r.policies ∧
        r'.maxAge = r.maxAge ∧ r'.levelTypes = r.levelTypes := by
  obtain ⟨args, name, k1, k2, k3, k4⟩ := c47_request_args r hr
  obtain ⟨m1, e1, e2⟩ := c62_arrives (uri := nsUri) (alias := nsAlias) hm h k2 (by decide) (by decide) hu ha h1
  refine ⟨args, m1, k1, e1, fun q hq hsent => ?_⟩
  obtain ⟨m', d, f1, f2, f3, f4, f5, f6, f7, f8, f9⟩ := e2 q hq hsent
  obtain ⟨r', g1, g2, g3, g4, g5, -⟩ := request_of_args X hr k3 (args := d) (fun k v => by rw [f5 k]; exact k4 k v) hp hnd hw m'.isOpenID1 false
  refine ⟨m', r', f1, ?_, g3, g4, g5⟩
  have hne : d.isEmpty = false := by
    have hp := (f5 t!"preferred_auth_policies").trans ((k4 _ _).2 (.inl ⟨rfl, rfl⟩))
    cases d with
    | nil => cases hp
    | cons p d => rfl
  simp only [Request.fromOpenIDRequest, f3, ok_bind, hne, Bool.false_eq_true, if_false, g1, pure_eq_ok]

/-- C47: What a provider makes of a message: no request exactly if the message has no argument of the extension, otherwise
    the request that the arguments say; what is raised is a `KeyError`, for a misused alias. -/
theorem c47_from_request (X : ExtraDigits) {reg : Dict Str Str} {m : Msg} (hm : Built reg m) {args : Dict Str Str}
    (hargs : m.getArgs (.uri t!"http://specs.openid.net/extensions/pape/1.0") = .ok args) :
    (∀ k, m.getArg (.uri t!"http://specs.openid.net/extensions/pape/1.0") k = .ok (args.get? k)) ∧
    (Request.fromOpenIDRequest X m = .ok none ↔ ∀ k, args.get? k = none) ∧
    (∀ r, Request.fromOpenIDRequest X m = .ok (some r) ↔ (∃ k, args.get? k ≠ none) ∧
      Request.parseExtensionArgs X {} args m.isOpenID1 false = .ok r) ∧
    ∀ e, Request.fromOpenIDRequest X m = .error e → e = .keyError := by
  change m.getArgs (.uri nsUri) = _ at hargs
  obtain ⟨hw, hg⟩ := c09_getArgs reg m hm _ args hargs
  refine ⟨hg, ?_⟩
  rw [Request.fromOpenIDRequest, hargs]
  simp only [ok_bind]
  cases args with
  | nil => simp
  | cons p d =>
    have hsome : ∃ k, Dict.get? (p :: d) k ≠ none := ⟨p.1, by rw [show p = (p.1, p.2) from rfl, Dict.get?_cons]; simp⟩
    have hnot : ¬ ∀ k, Dict.get? (p :: d) k = none := fun h => by obtain ⟨k, hk⟩ := hsome; exact hk (h k)
    simp only [List.isEmpty_cons, Bool.false_eq_true, if_false]
    refine ⟨?_, ?_, ?_⟩
    · constructor
      · intro h
        obtain ⟨r, -, h⟩ := bind_eq_ok.1 h
        cases h
      · exact fun h => absurd h hnot
    · intro r
      constructor
      · intro h
        obtain ⟨r', h1, h⟩ := bind_eq_ok.1 h
        cases h
        exact ⟨hsome, h1⟩
      · rintro ⟨-, h⟩
        rw [h]; rfl
    · intro e h
      rcases bind_eq_error.1 h with h | ⟨r, -, h⟩
      · rcases (c47_request_parse X _ _ false).2.2 e h with ⟨h, -⟩ | ⟨-, h, -⟩
        · exact h
        · cases h
      · cases h

end Props
