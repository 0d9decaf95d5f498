import Verif.Props.PapeResponse
/-! # C47: policy responses that arrive, and draft 2 -/

namespace Props
open Py Message Spec Association Pape

/-- the receiver of the arguments of a response -/
theorem response_of_args (X : ExtraDigits) {r : Response} (hr : ResponseOk r) {args : Dict Str Str} (hwf : Dict.WF args) {name : Str → Str}
    (hn : ∀ u l, r.levels.get? u = some l → r.aliases.get? (name u) = some u) (ha : ResponseArgs args name r)
    (hns : ∀ u l a, r.levels.get? u = some l → r.aliases.get? a = some u → startsWith a t!"ns." = false)
    (ht : ∀ t, r.authTime = some t → IsTime X t) (hp : Listable r.policies) (hnone : t!"none" ∉ r.policies ∧ AUTH_NONE ∉ r.policies)
    (openid1 strict : Bool) :
    ∃ r', Response.parseExtensionArgs X {} args openid1 strict = .ok r' ∧ ResponseOk r' ∧ r'.policies = r.policies ∧
      r'.authTime = r.authTime ∧ Dict.Same r'.levels r.levels := by
  have hpol : args.get? t!"auth_policies" = some (if r.policies = [] then AUTH_NONE else join t!" " r.policies) :=
    (ha _ _).2 (.inl ⟨rfl, rfl⟩)
  have hparts : parts (args.get? t!"auth_policies") = if r.policies = [] then [AUTH_NONE] else r.policies := by
    rw [hpol]
    split
    · decide +kernel
    · exact parts_join hp
  have htime : ∀ t, args.get? t!"auth_time" = some t ↔ r.authTime = some t := by
    intro t
    constructor
    · intro h
      rcases (ha _ _).1 h with ⟨e, -⟩ | ⟨u, l, -, ⟨e, -⟩ | ⟨e, -⟩⟩ | ⟨-, h⟩
      · exact absurd e (by decide)
      · exact absurd e (by simp)
      · exact absurd e (by simp)
      · exact h
    · intro h; exact (ha _ _).2 (.inr (.inr ⟨rfl, h⟩))
  have hkey : ∀ a l, args.get? (t!"auth_level." ++ a) = some l → startsWith a t!"ns." = false →
      ∃ u, a = name u ∧ r.levels.get? u = some l := by
    intro a l h hs
    rcases (ha _ _).1 h with ⟨e, -⟩ | ⟨u, l', hu, ⟨e, -⟩ | ⟨e, rfl⟩⟩ | ⟨e, -⟩
    · exact absurd e (by simp)
    · have e' : a = t!"ns." ++ name u := List.append_cancel_left (e.trans (by rfl : (t!"auth_level.ns." ++ name u : Str) = t!"auth_level." ++ (t!"ns." ++ name u)))
      rw [e', (startsWith_iff _ _).2 ⟨_, rfl⟩] at hs
      cases hs
    · exact ⟨u, List.append_cancel_left e, hu⟩
    · exact absurd e (by simp)
  have hst : ∀ u l, r.levels.get? u = some l → standsFor args openid1 (name u) = some u := by
    intro u l hu
    rw [standsFor, (ha _ u).2 (.inr (.inl ⟨u, l, hu, .inl ⟨rfl, rfl⟩⟩)), Option.some_or]
  have hhas : ∀ a u l, HasLevel args openid1 a u l ↔ a = name u ∧ r.levels.get? u = some l := by
    intro a u l
    constructor
    · rintro ⟨h1, h2, h3⟩
      obtain ⟨w, rfl, hw⟩ := hkey a l h1 h2
      rw [hst w l hw] at h3
      cases h3
      exact ⟨rfl, hw⟩
    · rintro ⟨rfl, hu⟩
      exact ⟨(ha _ l).2 (.inr (.inl ⟨u, l, hu, .inr ⟨rfl, rfl⟩⟩)), hns u l _ hu (hn u l hu), hst u l hu⟩
  obtain ⟨g1, g2, -⟩ := c47_response_parse X args hwf openid1 strict
  obtain ⟨r', hr'⟩ := g1 (by
      intro a u l h hm
      obtain ⟨rfl, hu⟩ := (hhas a u l).1 h
      have h1 := hn u l hu
      rcases hm with ⟨e, h⟩ | ⟨e, h⟩
      · rw [e, hr.aliases.nist] at h1; cases h1; exact h rfl
      · rw [e, hr.aliases.jisa] at h1; cases h1; exact h rfl) (fun _ => by
    refine ⟨⟨_, hpol, ?_⟩, ?_, ?_, ?_, ?_⟩
    · split
      · decide +kernel
      · next h0 => exact join_ne_nil h0 hp.2
    · rw [hparts]
      split
      · decide +kernel
      · exact hnone.1
    · rw [hparts]
      split
      · intro _; exact Nat.le_refl 1
      · exact fun h => absurd h hnone.2
    · intro a l h1 h2
      obtain ⟨u, rfl, hu⟩ := hkey a l h1 h2
      rw [hst u l hu]; simp
    · intro t h _
      exact ht t ((htime t).1 h))
  obtain ⟨-, -, k1, k2, k3, k4⟩ := g2 r' hr'
  refine ⟨r', hr', k1, ?_, ?_, ?_⟩
  · rw [k2, hparts]
    split
    · next h0 => rw [h0]; decide +kernel
    · rw [List.filter_eq_self]
      intro p hp'
      simp only [decide_eq_true_eq]
      exact ⟨fun e => hnone.1 (e ▸ hp'), fun e => hnone.2 (e ▸ hp')⟩
  · have h3 : ∀ t, r'.authTime = some t ↔ r.authTime = some t := by
      intro t
      rw [k3, htime]
      exact ⟨fun h => h.1, fun h => ⟨h, ht t h⟩⟩
    cases h4 : r.authTime with
    | some t => exact (h3 t).2 h4
    | none =>
      cases h5 : r'.authTime with
      | none => rfl
      | some t => rw [(h3 t).1 h5] at h4; cases h4
  · have h3 : ∀ u l, r'.levels.get? u = some l ↔ r.levels.get? u = some l := by
      intro u l
      rw [k4]
      constructor
      · rintro ⟨pre, a, post, -, h, -⟩
        exact ((hhas a u l).1 h).2
      · intro hu
        have h := (hhas (name u) u l).2 ⟨rfl, hu⟩
        obtain ⟨pre, post, e⟩ := List.append_of_mem (Dict.get?_mem _ _ _ h.1)
        refine ⟨pre, name u, post, e, h, ?_⟩
        intro b l' hb hx
        obtain ⟨rfl, -⟩ := (hhas b u l').1 hx
        have hwf' : (args.map (·.1)).Nodup := hwf
        rw [e, List.map_append, List.map_cons, List.nodup_append] at hwf'
        have := (List.nodup_cons.1 hwf'.2.1).1
        exact this (List.mem_map.2 ⟨_, hb, rfl⟩)
    intro u
    cases h4 : r.levels.get? u with
    | some l => exact (h3 u l).2 h4
    | none =>
      cases h5 : r'.levels.get? u with
      | none => rfl
      | some l => rw [(h3 u l).1 h5] at h4; cases h4

/-- C47: Parsing the arguments of a response gives the response back, in either version of the protocol, strictly or
    not: for policies without blanks other than those that stand for none, and aliases that do not start with "ns.". -/
theorem c47_response_round_trip (X : ExtraDigits) {r : Response} (hr : ResponseOk r)
    (hns : ∀ u l a, r.levels.get? u = some l → r.aliases.get? a = some u → startsWith a t!"ns." = false)
    (ht : ∀ t, r.authTime = some t → IsTime X t) (hp : Listable r.policies) (hnone : t!"none" ∉ r.policies ∧ AUTH_NONE ∉ r.policies) :
    ∃ args, r.getExtensionArgs X = .ok args ∧ ∀ args' openid1 strict, Dict.WF args' → Dict.Same args' args →
      ∃ r', Response.parseExtensionArgs X {} args' openid1 strict = .ok r' ∧ ResponseOk r' ∧ r'.policies = r.policies ∧
        r'.authTime = r.authTime ∧ Dict.Same r'.levels r.levels := by
  rcases c47_response_args X r hr with ⟨t, h1, h2, -⟩ | ⟨-, args, name, h1, h2, h3, h4⟩
  · exact absurd (ht t h1) h2
  refine ⟨args, h1, fun args' openid1 strict hw hs => ?_⟩
  exact response_of_args X hr hw h3 (fun k v => by rw [hs k]; exact h4 hns k v) hns ht hp hnone openid1 strict

/-- an extension that arrives, every argument of it signed -/
theorem signed_arrives {m' : Msg} {uri alias : Str} {args d : Dict Str Str} {signed : List Str}
    (f3 : m'.getArgs (.uri uri) = .ok d) (f5 : Dict.Same d args)
    (f7 : ∀ k v, args.get? k = some v → m'.getKey (.uri uri) k = .ok (some (t!"openid." ++ (alias ++ '.' :: k))))
    (hsigned : ∀ k v, args.get? k = some v → (t!"openid." ++ (alias ++ '.' :: k)) ∈ signed) :
    Consumer.getSignedNS m' signed (.uri uri) = .ok (some d) := by
  rw [Consumer.getSignedNS, f3]
  simp only [ok_bind]
  rw [allSigned_all]
  · rfl
  · intro k hk
    rw [Dict.mem_keys_iff, f5 k] at hk
    obtain ⟨v, hv⟩ := Option.isSome_iff_exists.1 hk
    rw [Consumer.isSigned, f7 k v hv]
    simp only [ok_bind, pure_eq_ok, Except.ok.injEq, List.contains_iff_mem]
    exact hsigned k v hv

/-- C47: A response that is added to a message, where every argument is signed, is the response that the relying party
    makes of it. -/
theorem c47_response_arrives (X : ExtraDigits) {reg0 reg : Dict Str Str} {m : Msg} {oid : Str}
    (hm : Built reg0 m) (h : Sendable reg m oid) (hu : m.namespaces.getAlias nsUri = none)
    (ha : m.namespaces.getNamespaceURI (.name nsAlias) = none) (h1 : m.isOpenID1 = true → reg.get? nsAlias = some nsUri)
    {r : Response} (hr : ResponseOk r)
    (hns : ∀ u l a, r.levels.get? u = some l → r.aliases.get? a = some u → startsWith a t!"ns." = false)
    (ht : ∀ t, r.authTime = some t → IsTime X t) (hp : Listable r.policies) (hnone : t!"none" ∉ r.policies ∧ AUTH_NONE ∉ r.policies) :
    ∃ args m1, r.getExtensionArgs X = .ok args ∧ m.addExtension nsUri nsAlias args = .ok m1 ∧ ∀ q signed, Dict.WF q →
      (∀ k, q.get? (t!"openid." ++ k) = m1.toPostArgs.get? (t!"openid." ++ k)) →
      (∀ k v, args.get? k = some v → (t!"openid.pape." ++ k) ∈ signed) →
      ∃ m' r', fromPostArgs reg q = .ok m' ∧ Response.fromSuccessResponse X m' signed = .ok (some r') ∧ r'.policies = r.policies ∧
        r'.authTime = r.authTime ∧ Dict.Same r'.levels r.levels := by
  rcases c47_response_args X r hr with ⟨t, h1, h2, -⟩ | ⟨-, args, name, k1, k2, k3, k4⟩
  · exact absurd (ht t h1) h2
  obtain ⟨m1, e1, e2⟩ := c62_arrives (uri := nsUri) (alias := nsAlias) hm h k2 (by decide) (by decide) hu ha h1
  refine ⟨args, m1, k1, e1, fun q signed hq hsent hsigned => ?_⟩
  obtain ⟨m', d, f1, f2, f3, f4, f5, f6, f7, f8, f9⟩ := e2 q hq hsent
  obtain ⟨r', g1, g2, g3, g4, g5⟩ := response_of_args X hr f4 k3 (fun k v => by rw [f5 k]; exact k4 hns k v) hns ht hp hnone m'.isOpenID1 false
  refine ⟨m', r', f1, ?_, g3, g4, g5⟩
  simp only [Response.fromSuccessResponse, signed_arrives f3 f5 f7 hsigned, ok_bind, g1, pure_eq_ok]

/-- C47: A response that is made of a message says what the arguments of the message say, and each of them is signed. -/
theorem c47_from_success (X : ExtraDigits) {reg q : Dict Str Str} {m : Msg} (h : Arrived reg q m) {names : List Str} {r : Response}
    (hr : Response.fromSuccessResponse X m (names.map (t!"openid." ++ ·)) = .ok (some r)) :
    ∃ args, Dict.WF args ∧ (∀ k, m.getArg (.uri nsUri) k = .ok (args.get? k)) ∧
      (∀ k v, args.get? k = some v → ∃ n ∈ names, m.getKey (.uri nsUri) k = .ok (some (t!"openid." ++ n)) ∧
        q.get? (t!"openid." ++ n) = some v) ∧
      Response.parseExtensionArgs X {} args m.isOpenID1 false = .ok r := by
  rw [Response.fromSuccessResponse] at hr
  obtain ⟨o, h1, hr⟩ := bind_eq_ok.1 hr
  cases o with
  | none => cases hr
  | some args =>
    obtain ⟨r', h2, hr⟩ := bind_eq_ok.1 hr
    cases hr
    obtain ⟨g1, g2, g3⟩ := c39_getSignedNS h names _ args h1
    refine ⟨args, g1, g2, ?_, h2⟩
    intro k v hv
    obtain ⟨f, k1, k2, k3, -⟩ := g3 k v hv
    exact ⟨f, k1, k2, k3⟩

/-- C47: There is no response exactly if some argument of the extension is not signed.  (A message without any argument of
    the extension gives a response that says nothing.) -/
theorem c47_unsigned (X : ExtraDigits) {reg q : Dict Str Str} {m : Msg} (h : Arrived reg q m) (signed : List Str) :
    Response.fromSuccessResponse X m signed = .ok none ↔
      ∃ key v K, m.getArg (.uri nsUri) key = .ok (some v) ∧ m.getKey (.uri nsUri) key = .ok (some K) ∧ K ∉ signed := by
  have hex : ∃ o, m.getArg (.uri nsUri) [] = .ok o := by
    rw [Msg.getArg, Msg.fixNS]
    exact ⟨_, rfl⟩
  rw [← c39_getSignedNS_none h signed (.uri nsUri) hex, Response.fromSuccessResponse]
  constructor
  · intro hr
    obtain ⟨o, h1, hr⟩ := bind_eq_ok.1 hr
    cases o with
    | none => exact h1
    | some args =>
      obtain ⟨r', -, hr⟩ := bind_eq_ok.1 hr
      cases hr
  · intro hr; rw [hr]; rfl

/-- C47: The NIST level: none if the response has none, a number if it is one, `ValueError` otherwise. -/
theorem c47_nist (X : ExtraDigits) (r : Response) :
    r.nistAuthLevel X = match r.levels.get? t!"http://csrc.nist.gov/publications/nistpubs/800-63/SP800-63V1_0_2.pdf" with
      | none => .ok none
      | some l => match parseInt X l with
        | .ok n => .ok (some n)
        | .error _ => .error .valueError := by
  unfold Response.nistAuthLevel Response.getAuthLevel
  rw [show LEVELS_NIST = t!"http://csrc.nist.gov/publications/nistpubs/800-63/SP800-63V1_0_2.pdf" from rfl]
  cases r.levels.get? t!"http://csrc.nist.gov/publications/nistpubs/800-63/SP800-63V1_0_2.pdf" with
  | none => rfl
  | some l =>
    simp only
    cases h : parseInt X l with
    | ok n => rfl
    | error e => rw [parseInt_error X l e h]; rfl

/-! ## draft 2 -/

/-- C47 (draft 2): A request arrives as it was sent; parsing arguments never fails, an age that is no number is dropped. -/
theorem c47_draft2_request (X : ExtraDigits) :
    (∀ args, (Request2.parseExtensionArgs X args).policies = (parts (args.get? t!"preferred_auth_policies")).eraseDups ∧
      ∀ n, (Request2.parseExtensionArgs X args).maxAge = some n ↔
        ∃ s, s ≠ [] ∧ args.get? t!"max_auth_age" = some s ∧ parseInt X s = .ok n) ∧
    ∀ r : Request2, Listable r.policies → r.policies.Nodup → ∀ args, Dict.Same args r.getExtensionArgs →
      Request2.parseExtensionArgs X args = r := by
  have hparse : ∀ args, (Request2.parseExtensionArgs X args).policies = (parts (args.get? t!"preferred_auth_policies")).eraseDups ∧
      ∀ n, (Request2.parseExtensionArgs X args).maxAge = some n ↔
        ∃ s, s ≠ [] ∧ args.get? t!"max_auth_age" = some s ∧ parseInt X s = .ok n := by
    intro args
    refine ⟨parsePolicies_eq _, ?_⟩
    intro n
    unfold Request2.parseExtensionArgs parseAge
    simp only
    match args.get? t!"max_auth_age" with
    | none => simp
    | some [] =>
      simp only [reduceCtorEq, false_iff, not_exists, not_and, Option.some.injEq]
      intro s hs e; exact absurd e.symm hs
    | some (c :: cs) =>
      simp only
      cases hp : parseInt X (c :: cs) with
      | ok n' =>
        simp only [Option.some.injEq]
        constructor
        · rintro rfl; exact ⟨_, by simp, rfl, hp⟩
        · rintro ⟨s, -, rfl, h⟩; rw [hp] at h; cases h; rfl
      | error e =>
        simp only [Bool.false_eq_true, if_false, reduceCtorEq, false_iff, not_exists, not_and, Option.some.injEq]
        rintro s - rfl h
        rw [hp] at h; cases h
  refine ⟨hparse, ?_⟩
  intro r hp hnd args hs
  obtain ⟨h1, h2⟩ := hparse args
  obtain ⟨policies, maxAge⟩ := r
  have e1 : args.get? t!"preferred_auth_policies" = some (join t!" " policies) := by
    rw [hs]; simp [Request2.getExtensionArgs, Dict.get?_cons]
  have e2 : args.get? t!"max_auth_age" = maxAge.map intToStr := by
    rw [hs]
    simp only [Request2.getExtensionArgs, List.cons_append, List.nil_append, Dict.get?_cons]
    rw [if_neg (by decide)]
    cases maxAge with
    | none => rfl
    | some n => simp [Dict.get?_cons]
  cases hr : Request2.parseExtensionArgs X args with
  | mk p a =>
    rw [hr] at h1 h2
    simp only at h1 h2
    rw [e1, parts_join hp, eraseDups_nodup hnd] at h1
    subst h1
    congr
    cases maxAge with
    | none =>
      cases a with
      | none => rfl
      | some n =>
        obtain ⟨s, -, h, -⟩ := (h2 n).1 rfl
        rw [e2] at h; cases h
    | some n =>
      refine (h2 n).2 ⟨intToStr n, ?_, e2, parseInt_intToStr X n⟩
      intro e
      have := parseInt_intToStr X n
      rw [e] at this
      cases this

/-- C47 (draft 2): The arguments of a response, which need a level from 0 to 4 and a time that is one. -/
theorem c47_draft2_response_args (X : ExtraDigits) (r : Response2) :
    ((∃ n, r.nist = some n ∧ ¬ (0 ≤ n ∧ n < 5)) ∨ (∃ t, r.authTime = some t ∧ ¬ IsTime X t)) ∧ r.getExtensionArgs X = .error .valueError ∨
    (∀ n, r.nist = some n → 0 ≤ n ∧ n < 5) ∧ (∀ t, r.authTime = some t → IsTime X t) ∧ ∃ args, r.getExtensionArgs X = .ok args ∧ Dict.WF args ∧
      ∀ k v, args.get? k = some v ↔ k = t!"auth_policies" ∧ v = (if r.policies = [] then t!"none" else join t!" " r.policies) ∨
        (k = t!"nist_auth_level" ∧ ∃ n, r.nist = some n ∧ v = intToStr n) ∨ k = t!"auth_time" ∧ r.authTime = some v := by
  have d1 : ¬ (t!"auth_policies" : Str) = t!"nist_auth_level" := by decide
  have d2 : ¬ (t!"auth_policies" : Str) = t!"auth_time" := by decide
  have d3 : ¬ (t!"nist_auth_level" : Str) = t!"auth_time" := by decide
  obtain ⟨policies, time, nist⟩ := r
  have hpol : (if policies.isEmpty then (t!"none" : Str) else join t!" " policies) = if policies = [] then t!"none" else join t!" " policies := by
    cases policies <;> simp
  simp only [Response2.getExtensionArgs, hpol]
  generalize (if policies = [] then (t!"none" : Str) else join t!" " policies) = P
  by_cases hn : ∀ n, nist = some n → 0 ≤ n ∧ n < 5
  · obtain ⟨nl, hnl, hne⟩ : ∃ nl, nistArgs nist = .ok nl ∧ nl = (match nist with
        | none => []
        | some n => [(t!"nist_auth_level", intToStr n)]) := by
      unfold nistArgs
      cases nist with
      | none => exact ⟨_, rfl, rfl⟩
      | some n => exact ⟨_, if_pos (hn n rfl), rfl⟩
    rw [hnl]
    simp only [ok_bind]
    by_cases ht : ∀ t, time = some t → IsTime X t
    · right
      refine ⟨hn, ht, ?_⟩
      obtain ⟨tl, htl, hte⟩ : ∃ tl, timeArgs X time = .ok tl ∧ tl = (match time with
          | none => []
          | some t => [(t!"auth_time", t)]) := by
        unfold timeArgs
        cases time with
        | none => exact ⟨_, rfl, rfl⟩
        | some t => exact ⟨_, if_pos ((timeOk_iff X t).2 (ht t rfl)), rfl⟩
      rw [htl]
      simp only [ok_bind, pure_eq_ok, Except.ok.injEq]
      refine ⟨_, rfl, ?_, ?_⟩
      · subst hne; subst hte
        cases nist <;> cases time <;> simp [Dict.WF, Dict.keys]
      · intro k v
        subst hne; subst hte
        cases nist <;> cases time <;>
          simp only [List.cons_append, List.nil_append, List.append_nil, Dict.get?_cons, Dict.get?_nil, Option.some.injEq, reduceCtorEq,
            false_and, exists_false, and_false, or_false, false_or] <;>
          grind
    · left
      have ⟨t, h1, h2⟩ : ∃ t, time = some t ∧ ¬ IsTime X t := by
        cases time with
        | none => exact absurd (by simp) ht
        | some t => exact ⟨t, rfl, fun h => ht fun t' e => by cases e; exact h⟩
      refine ⟨.inr ⟨t, h1, h2⟩, ?_⟩
      have : timeOk X t = false := by
        cases h : timeOk X t with
        | false => rfl
        | true => exact absurd ((timeOk_iff X t).1 h) h2
      subst h1
      simp [timeArgs, this]
  · left
    have ⟨n, h1, h2⟩ : ∃ n, nist = some n ∧ ¬ (0 ≤ n ∧ n < 5) := by
      cases nist with
      | none => exact absurd (by simp) hn
      | some n => exact ⟨n, rfl, fun h => hn fun t' e => by cases e; exact h⟩
    refine ⟨.inl ⟨n, h1, h2⟩, ?_⟩
    subst h1
    simp only [nistArgs, if_neg h2, error_bind]

/-- C47 (draft 2): What parsing arguments into a new response gives. -/
theorem c47_draft2_response_parse (X : ExtraDigits) (args : Dict Str Str) (strict : Bool) :
    let NistOk := ∀ s, args.get? t!"nist_auth_level" = some s → s ≠ [] → ∃ n, parseInt X s = .ok n
    let TimeOk := ∀ t, args.get? t!"auth_time" = some t → t ≠ [] → IsTime X t
    (∃ r, Response2.parseExtensionArgs X {} args strict = .ok r ∧ (strict = true → NistOk ∧ TimeOk) ∧
      r.policies = (if args.get? t!"auth_policies" = some t!"none" then [] else parts (args.get? t!"auth_policies")) ∧
      (∀ n, r.nist = some n ↔ (0 ≤ n ∧ n < 5) ∧ ∃ s, s ≠ [] ∧ args.get? t!"nist_auth_level" = some s ∧ parseInt X s = .ok n) ∧
      ∀ t, r.authTime = some t ↔ args.get? t!"auth_time" = some t ∧ IsTime X t) ∨
    Response2.parseExtensionArgs X {} args strict = .error .valueError ∧ strict = true ∧ ¬ (NistOk ∧ TimeOk) := by
  intro NistOk TimeOk
  have hnil : ¬ IsTime X [] := by
    intro h
    have := (timeOk_iff X []).2 h
    cases this
  have hpol : Response2.parsePolicies {} (args.get? t!"auth_policies") =
      if args.get? t!"auth_policies" = some t!"none" then [] else parts (args.get? t!"auth_policies") := by
    unfold Response2.parsePolicies parts
    match args.get? t!"auth_policies" with
    | none => simp
    | some [] => simp
    | some (c :: cs) => simp
  have hn : (∃ o, Response2.parseNist X {} (args.get? t!"nist_auth_level") strict = .ok o ∧ (strict = true → NistOk) ∧
      ∀ n, o = some n ↔ (0 ≤ n ∧ n < 5) ∧ ∃ s, s ≠ [] ∧ args.get? t!"nist_auth_level" = some s ∧ parseInt X s = .ok n) ∨
      Response2.parseNist X {} (args.get? t!"nist_auth_level") strict = .error .valueError ∧ strict = true ∧ ¬ NistOk := by
    show (∃ o, Response2.parseNist X {} (args.get? t!"nist_auth_level") strict = .ok o ∧
      (strict = true → ∀ s, args.get? t!"nist_auth_level" = some s → s ≠ [] → ∃ n, parseInt X s = .ok n) ∧ _) ∨ _ ∧ _ ∧
      ¬ ∀ s, args.get? t!"nist_auth_level" = some s → s ≠ [] → ∃ n, parseInt X s = .ok n
    unfold Response2.parseNist
    match args.get? t!"nist_auth_level" with
    | none => left; exact ⟨none, rfl, by simp, by simp⟩
    | some [] =>
      left
      refine ⟨none, rfl, by intro _ s e; cases e; simp, ?_⟩
      intro n
      simp only [reduceCtorEq, false_iff, not_and, not_exists, Option.some.injEq]
      intro _ s hs e; exact absurd e.symm hs
    | some (c :: cs) =>
      simp only
      cases hp : parseInt X (c :: cs) with
      | ok n =>
        left
        refine ⟨_, rfl, by intro _ s e _; cases e; exact ⟨n, hp⟩, ?_⟩
        intro n'
        constructor
        · intro h
          split at h
          · next h5 => cases h; exact ⟨h5, _, by simp, rfl, hp⟩
          · cases h
        · rintro ⟨h5, s, -, e, h⟩
          cases e; rw [hp] at h; cases h
          rw [if_pos h5]
      | error e =>
        cases strict with
        | true =>
          right
          refine ⟨rfl, rfl, ?_⟩
          intro h
          obtain ⟨n, hn⟩ := h _ rfl (by simp)
          rw [hp] at hn; cases hn
        | false =>
          left
          refine ⟨none, rfl, by simp, ?_⟩
          intro n
          simp only [reduceCtorEq, false_iff, not_and, not_exists, Option.some.injEq]
          rintro _ s _ rfl h
          rw [hp] at h; cases h
  have ht : (∃ o, Response2.parseTime X {} (args.get? t!"auth_time") strict = .ok o ∧ (strict = true → TimeOk) ∧
      ∀ t, o = some t ↔ args.get? t!"auth_time" = some t ∧ IsTime X t) ∨
      Response2.parseTime X {} (args.get? t!"auth_time") strict = .error .valueError ∧ strict = true ∧ ¬ TimeOk := by
    show (∃ o, Response2.parseTime X {} (args.get? t!"auth_time") strict = .ok o ∧
      (strict = true → ∀ t, args.get? t!"auth_time" = some t → t ≠ [] → IsTime X t) ∧ _) ∨ _ ∧ _ ∧
      ¬ ∀ t, args.get? t!"auth_time" = some t → t ≠ [] → IsTime X t
    unfold Response2.parseTime
    match args.get? t!"auth_time" with
    | none => left; exact ⟨none, rfl, by simp, by simp⟩
    | some [] =>
      left
      refine ⟨none, rfl, by intro _ s e; cases e; simp, ?_⟩
      intro t
      constructor
      · intro h; cases h
      · rintro ⟨e, h⟩; cases e; exact absurd h hnil
    | some (c :: cs) =>
      simp only
      cases h : timeOk X (c :: cs) with
      | true =>
        have ht := (timeOk_iff X _).1 h
        left
        refine ⟨_, rfl, by intro _ s e _; cases e; exact ht, ?_⟩
        intro t
        simp only [Option.some.injEq]
        constructor
        · rintro rfl; exact ⟨rfl, ht⟩
        · exact fun h => h.1
      | false =>
        have ht : ¬ IsTime X (c :: cs) := fun h' => by rw [(timeOk_iff X _).2 h'] at h; cases h
        cases strict with
        | true => right; exact ⟨rfl, rfl, fun h => ht (h _ rfl (by simp))⟩
        | false =>
          left
          refine ⟨none, rfl, by simp, ?_⟩
          intro t
          constructor
          · intro h; cases h
          · rintro ⟨e, h⟩; cases e; exact absurd h ht
  rw [Response2.parseExtensionArgs]
  rcases hn with ⟨o, h1, h2, h3⟩ | ⟨h1, h2, h3⟩
  · rcases ht with ⟨o', g1, g2, g3⟩ | ⟨g1, g2, g3⟩
    · left
      rw [h1, g1]
      exact ⟨_, rfl, fun h => ⟨h2 h, g2 h⟩, hpol, h3, g3⟩
    · right
      rw [h1, g1]
      exact ⟨rfl, g2, fun h => g3 h.2⟩
  · right
    rw [h1]
    exact ⟨rfl, h2, fun h => h3 h.1⟩

/-- C47 (draft 2): Parsing the arguments of a response gives the response back, strictly or not. -/
theorem c47_draft2_response_round_trip (X : ExtraDigits) {r : Response2} (hp : Listable r.policies) (hnone : r.policies ≠ [t!"none"])
    {args : Dict Str Str} (h : r.getExtensionArgs X = .ok args) (args' : Dict Str Str) (hs : Dict.Same args' args) (strict : Bool) :
    Response2.parseExtensionArgs X {} args' strict = .ok r := by
  rcases c47_draft2_response_args X r with ⟨-, e⟩ | ⟨h1, h2, a, e, hw, hg⟩
  · rw [h] at e; cases e
  rw [h] at e; cases e
  have hg' : ∀ k v, args'.get? k = some v ↔ _ := fun k v => (by rw [hs k] : args'.get? k = some v ↔ args.get? k = some v).trans (hg k v)
  have e1 := (hg' t!"auth_policies" _).2 (.inl ⟨rfl, rfl⟩)
  have e2 : ∀ v, args'.get? t!"nist_auth_level" = some v ↔ ∃ n, r.nist = some n ∧ v = intToStr n := by
    intro v; rw [hg']; simp
  have e3 : ∀ v, args'.get? t!"auth_time" = some v ↔ r.authTime = some v := by
    intro v; rw [hg']; simp
  rcases c47_draft2_response_parse X args' strict with ⟨r', g1, -, g2, g3, g4⟩ | ⟨-, -, g⟩
  · rw [g1]
    congr 1
    have p1 : r'.policies = r.policies := by
      rw [g2, e1]
      by_cases h0 : r.policies = []
      · simp [h0]
      · rw [if_neg h0, if_neg, parts_join hp]
        intro e
        have : parts (some (join t!" " r.policies)) = parts (some t!"none") := by rw [e]
        rw [parts_join hp] at this
        exact hnone (this.trans (by decide))
    have p2 : ∀ n, r'.nist = some n ↔ r.nist = some n := by
      intro n
      rw [g3]
      constructor
      · rintro ⟨-, s, -, h, hs⟩
        obtain ⟨n', hn', rfl⟩ := (e2 s).1 h
        rw [parseInt_intToStr] at hs; cases hs; exact hn'
      · intro h
        refine ⟨h1 n h, intToStr n, ?_, (e2 _).2 ⟨n, h, rfl⟩, parseInt_intToStr X n⟩
        intro e
        have := parseInt_intToStr X n
        rw [e] at this
        cases this
    have p3 : ∀ t, r'.authTime = some t ↔ r.authTime = some t := by
      intro t
      rw [g4, e3]
      exact ⟨fun h => h.1, fun h => ⟨h, h2 t h⟩⟩
    have q2 : r'.nist = r.nist := Option.ext p2
    have q3 : r'.authTime = r.authTime := Option.ext p3
    cases r; cases r'
    simp only at p1 q2 q3
    rw [p1, q2, q3]
  · refine absurd ⟨?_, ?_⟩ g
    · intro s h _
      obtain ⟨n', hn', rfl⟩ := (e2 s).1 h
      exact ⟨n', parseInt_intToStr X n'⟩
    · intro t h _
      exact h2 t ((e3 t).1 h)

/-! ## the statements at work -/

def plainDigits : ExtraDigits := fun _ => none

/-- three levels, of which one without an alias of its own; a fourth is refused -/
def papeReq0 : Request := [.policy t!"http://p/1", .policy t!"http://p/2", .policy t!"http://p/1", .level t!"http://l/1" (some t!"one"),
  .level LEVELS_NIST none, .level t!"http://l/2" none, .level t!"http://l/3" (some t!"nist")].foldl requestStep { maxAge := some 3600 }

example : RequestOk papeReq0 := (c47_request_history _ (requestOk_new [] _) _).1
example : papeReq0.policies.Nodup := by decide +kernel
example : Listable papeReq0.policies := by decide +kernel
example : ∀ p ∈ papeReq0.aliases, p.1 ≠ [] ∧ ∀ c ∈ p.1, isSpace c = false := by decide +kernel

def papeArgs0 : Dict Str Str := [(t!"preferred_auth_policies", t!"http://p/1 http://p/2"), (t!"max_auth_age", t!"3600"),
  (t!"auth_level.ns.one", t!"http://l/1"), (t!"auth_level.ns.nist", LEVELS_NIST), (t!"auth_level.ns.cust0", t!"http://l/2"),
  (t!"preferred_auth_level_types", t!"one nist cust0")]

example : papeReq0.getExtensionArgs = .ok papeArgs0 := by decide +kernel
example : (Request.parseExtensionArgs plainDigits {} papeArgs0 false true).toOption.map (fun r => (r.policies, r.maxAge, r.levelTypes)) =
    some ([t!"http://p/1", t!"http://p/2"], some 3600, [t!"http://l/1", LEVELS_NIST, t!"http://l/2"]) := by decide +kernel
example : papeReq0.preferredTypes [t!"http://p/3", t!"http://p/2"] = [t!"http://p/2"] := by decide +kernel

/-- the request in a message -/
example : (((Msg.new (some OPENID2_NS)).toOption.bind fun m => (m.addExtension nsUri nsAlias papeArgs0).toOption).bind fun m =>
    (fromPostArgs libReg m.toPostArgs).toOption.bind fun m =>
      ((Request.fromOpenIDRequest plainDigits m).toOption.map fun o => o.map fun r => (r.policies, r.levelTypes))) =
    some (some ([t!"http://p/1", t!"http://p/2"], [t!"http://l/1", LEVELS_NIST, t!"http://l/2"])) := by decide +kernel

def papeResp0 : Response := [.policy t!"http://p/1", .policy AUTH_NONE, .level LEVELS_NIST t!"2" none,
  .level t!"http://l/1" t!"high" none].foldl responseStep { authTime := some t!"2008-01-31T12:00:00Z" }

example : ResponseOk papeResp0 := (c47_response_history _ (responseOk_new [] _) _).1
example : IsTime plainDigits t!"2008-01-31T12:00:00Z" := (timeOk_iff _ _).1 (by decide +kernel)
example : Listable papeResp0.policies ∧ t!"none" ∉ papeResp0.policies ∧ AUTH_NONE ∉ papeResp0.policies := by decide +kernel
example : ∀ p ∈ papeResp0.aliases, startsWith p.1 t!"ns." = false := by decide +kernel

def papeRespArgs0 : Dict Str Str := [(t!"auth_policies", t!"http://p/1"), (t!"auth_level.ns.nist", LEVELS_NIST), (t!"auth_level.nist", t!"2"),
  (t!"auth_level.ns.cust0", t!"http://l/1"), (t!"auth_level.cust0", t!"high"), (t!"auth_time", t!"2008-01-31T12:00:00Z")]

example : papeResp0.getExtensionArgs plainDigits = .ok papeRespArgs0 := by decide +kernel
example : (Response.parseExtensionArgs plainDigits {} papeRespArgs0 false true).toOption.map (fun r => (r.policies, r.authTime, r.levels)) =
    some ([t!"http://p/1"], some t!"2008-01-31T12:00:00Z", [(LEVELS_NIST, t!"2"), (t!"http://l/1", t!"high")]) := by decide +kernel
example : papeResp0.nistAuthLevel plainDigits = .ok (some 2) := by decide +kernel

/-- the response in a message, all of it signed or not -/
def papeSuccess0 (args : Dict Str Str) (signed : List Str) : Option (Except PyErr (Option Response)) :=
  ((Msg.new (some OPENID2_NS)).toOption.bind fun m => (m.addExtension nsUri nsAlias args).toOption).bind fun m =>
    (fromPostArgs libReg m.toPostArgs).toOption.map fun m => Response.fromSuccessResponse plainDigits m signed

example : papeSuccess0 papeRespArgs0 (papeRespArgs0.map fun p => t!"openid.pape." ++ p.1) =
    some (.ok (some { papeResp0 with aliases := [(t!"nist", LEVELS_NIST), (t!"jisa", LEVELS_JISA), (t!"cust0", t!"http://l/1")] })) := by
  decide +kernel
example : papeSuccess0 papeRespArgs0 [t!"openid.pape.auth_policies"] = some (.ok none) := by decide +kernel

example : Response2.getExtensionArgs plainDigits ⟨[t!"http://p/1"], some t!"2008-01-31T12:00:00Z", some 3⟩ =
    .ok [(t!"auth_policies", t!"http://p/1"), (t!"nist_auth_level", t!"3"), (t!"auth_time", t!"2008-01-31T12:00:00Z")] := by decide +kernel
example : Response2.getExtensionArgs plainDigits { nist := some 5 } = .error .valueError := by decide +kernel
example : Response2.parseExtensionArgs plainDigits {} [(t!"nist_auth_level", t!"7")] true = .ok {} := by decide +kernel

/-! ## exceptions -/

/-- C47 (exception): a message without any argument of the extension has a response, an empty one. -/
theorem c47_empty_response : papeSuccess0 [] [] = some (.ok (some {})) := by decide +kernel

/-- C47 (exception): a message that uses a well-known alias for another level raises `KeyError`, even if parsing is not
    strict; so the provider and the relying party must expect it of any message. -/
theorem c47_misused_alias :
    Request.parseExtensionArgs plainDigits {} [(t!"preferred_auth_level_types", t!"nist"), (t!"auth_level.ns.nist", t!"http://l/1")] false false =
      .error .keyError ∧
    papeSuccess0 [(t!"auth_level.ns.jisa", t!"http://l/1"), (t!"auth_level.jisa", t!"1")]
      [t!"openid.pape.auth_level.ns.jisa", t!"openid.pape.auth_level.jisa"] = some (.error .keyError) := by
  constructor <;> decide +kernel

/-- C47 (exception): a level whose alias starts with "ns." is lost. -/
theorem c47_ns_alias : ∃ r args, ResponseOk r ∧ r.getAuthLevel t!"http://l/1" = .ok t!"high" ∧ r.getExtensionArgs plainDigits = .ok args ∧
    (Response.parseExtensionArgs plainDigits {} args false true).toOption.map (·.levels) = some [] :=
  ⟨[.level t!"http://l/1" t!"high" (some t!"ns.one")].foldl responseStep {}, [(t!"auth_policies", AUTH_NONE),
      (t!"auth_level.ns.ns.one", t!"http://l/1"), (t!"auth_level.ns.one", t!"high")],
    (c47_response_history _ (responseOk_new [] _) _).1, by decide +kernel, by decide +kernel, by decide +kernel⟩

/-- C47 (exception): a time may end with a line feed. -/
theorem c47_time_newline : (Response.parseExtensionArgs plainDigits {} [(t!"auth_policies", AUTH_NONE),
    (t!"auth_time", t!"2008-01-31T12:00:00Z\n")] false true).toOption.map (·.authTime) = some (some t!"2008-01-31T12:00:00Z\n") := by
  decide +kernel

/-- C47 (exception): the NIST level of a response that is no number raises `ValueError`. -/
theorem c47_nist_text : ∃ r, papeSuccess0 [(t!"auth_level.ns.nist", LEVELS_NIST), (t!"auth_level.nist", t!"high")]
    [t!"openid.pape.auth_level.ns.nist", t!"openid.pape.auth_level.nist"] = some (.ok (some r)) ∧
    r.nistAuthLevel plainDigits = .error .valueError :=
  ⟨{ levels := [(LEVELS_NIST, t!"high")] }, by decide +kernel, by decide +kernel⟩

/-- C47 (exception): a policy with a blank, an empty policy, and a response with the policy "none" do not come back. -/
theorem c47_bad_policies :
    (Request.getExtensionArgs { policies := [t!"a b"] }).toOption.bind
      (fun d => (Request.parseExtensionArgs plainDigits {} d false true).toOption.map (·.policies)) = some [t!"a", t!"b"] ∧
    (Request.getExtensionArgs { policies := [[]] }).toOption.bind
      (fun d => (Request.parseExtensionArgs plainDigits {} d false true).toOption.map (·.policies)) = some [] ∧
    (Response.getExtensionArgs plainDigits { policies := [t!"none"] }).toOption.bind
      (fun d => (Response.parseExtensionArgs plainDigits {} d false false).toOption.map (·.policies)) = some [] := by
  refine ⟨?_, ?_, ?_⟩ <;> decide +kernel

end Props
