import Verif.Props.Pape
import Verif.Props.Sreg
/-! # C47: policy responses -/

namespace Props
open Py Message Spec Association Pape

/-- C47: The arguments of a response are exactly its policies, its levels with the aliases that it has for them, and its
    time, unless an alias starts with "ns."; a time that is none raises `ValueError`. -/
theorem c47_response_args (X : ExtraDigits) (r : Response) (hr : ResponseOk r) :
    (∃ t, r.authTime = some t ∧ ¬ IsTime X t ∧ r.getExtensionArgs X = .error .valueError) ∨
    (∀ t, r.authTime = some t → IsTime X t) ∧
    ∃ (args : Dict Str Str) (name : Str → Str), r.getExtensionArgs X = .ok args ∧ Dict.WF args ∧
      (∀ u l, r.levels.get? u = some l → r.aliases.get? (name u) = some u) ∧
      ((∀ u l a, r.levels.get? u = some l → r.aliases.get? a = some u → startsWith a t!"ns." = false) → ResponseArgs args name r) := by
  have hnamed : ∀ p ∈ r.levels, ∃ a, r.aliases.get? a = some p.1 := by
    intro p hp
    exact hr.named p.1 p.2 (Dict.get?_of_mem _ hr.wf _ _ hp)
  rw [Response.getExtensionArgs, aliasedLevels_ok hnamed]
  simp only [ok_bind]
  have htime : (∃ t, r.authTime = some t ∧ ¬ IsTime X t ∧ timeArgs X r.authTime = .error .valueError) ∨
      (∀ t, r.authTime = some t → IsTime X t) ∧ ∃ l, timeArgs X r.authTime = .ok l ∧
        ∀ k v, (k, v) ∈ l ↔ k = t!"auth_time" ∧ r.authTime = some v := by
    unfold timeArgs
    cases r.authTime with
    | none => right; exact ⟨by simp, [], rfl, by simp⟩
    | some t =>
      by_cases ht : IsTime X t
      · right
        refine ⟨by intro t' e; cases e; exact ht, [(t!"auth_time", t)], by simp [(timeOk_iff X t).2 ht], ?_⟩
        intro k v
        simp only [List.mem_singleton, Prod.mk.injEq, Option.some.injEq]
        constructor
        · rintro ⟨h1, h2⟩; exact ⟨h1, h2.symm⟩
        · rintro ⟨h1, h2⟩; exact ⟨h1, h2.symm⟩
      · left
        refine ⟨t, rfl, ht, ?_⟩
        have : timeOk X t = false := by
          cases h : timeOk X t with
          | false => rfl
          | true => exact absurd ((timeOk_iff X t).1 h) ht
        simp [this]
  rcases htime with ⟨t, h1, h2, h3⟩ | ⟨h1, tl, h2, h3⟩
  · left; exact ⟨t, h1, h2, by rw [h3]; rfl⟩
  right
  refine ⟨h1, _, nameFor r.aliases, by rw [h2]; rfl, Dict.WF_ofPairs _, ?_, ?_⟩
  · intro u l hu
    obtain ⟨a, ha⟩ := hr.named u l hu
    exact nameFor_get hr.aliases.wf ha
  intro hns
  have hname : ∀ u l, r.levels.get? u = some l → r.aliases.get? (nameFor r.aliases u) = some u := by
    intro u l hu
    obtain ⟨a, ha⟩ := hr.named u l hu
    exact nameFor_get hr.aliases.wf ha
  have hmem : ∀ k v, (k, v) ∈ ([(t!"auth_policies", if r.policies.isEmpty then AUTH_NONE else join t!" " r.policies)] ++
      (r.levels.map (fun p => (nameFor r.aliases p.1, p.1, p.2))).flatMap levelArgs ++ tl : List (Str × Str)) ↔
      (k = t!"auth_policies" ∧ v = (if r.policies = [] then Pape.AUTH_NONE else join t!" " r.policies) ∨
      (∃ u l, r.levels.get? u = some l ∧ (k = t!"auth_level.ns." ++ nameFor r.aliases u ∧ v = u ∨
        k = t!"auth_level." ++ nameFor r.aliases u ∧ v = l)) ∨
      (k = t!"auth_time" ∧ r.authTime = some v)) := by
    intro k v
    rw [List.mem_append, List.mem_append, List.mem_singleton, Prod.mk.injEq, or_assoc, h3]
    refine or_congr ?_ (or_congr ?_ Iff.rfl)
    · simp [List.isEmpty_iff]
    · simp only [List.mem_flatMap, List.mem_map]
      constructor
      · rintro ⟨x, ⟨p, hp, rfl⟩, hx⟩
        refine ⟨p.1, p.2, Dict.get?_of_mem _ hr.wf _ _ hp, ?_⟩
        simpa [levelArgs, nsKey] using hx
      · rintro ⟨u, l, hu, hx⟩
        exact ⟨_, ⟨(u, l), Dict.get?_mem _ _ _ hu, rfl⟩, by simpa [levelArgs, nsKey] using hx⟩
  intro k v
  rw [Ax.ofPairs_functional]
  · exact hmem k v
  · intro k v w hv hw
    have d1 : ∀ a, (t!"auth_policies" : Str) ≠ t!"auth_level.ns." ++ a := fun a => by simp
    have d2 : ∀ a, (t!"auth_policies" : Str) ≠ t!"auth_level." ++ a := fun a => by simp
    have d3 : ∀ a, (t!"auth_time" : Str) ≠ t!"auth_level.ns." ++ a := fun a => by simp
    have d4 : ∀ a, (t!"auth_time" : Str) ≠ t!"auth_level." ++ a := fun a => by simp
    have d5 : (t!"auth_policies" : Str) ≠ t!"auth_time" := by decide
    have hself : ∀ u l u' l', r.levels.get? u = some l → r.levels.get? u' = some l' →
        nameFor r.aliases u = nameFor r.aliases u' → u = u' := by
      intro u l u' l' hu hu' e
      have g1 := hname u l hu
      rw [e, hname u' l' hu'] at g1
      cases g1; rfl
    have hmix : ∀ u l u' , r.levels.get? u = some l →
        (t!"auth_level.ns." ++ nameFor r.aliases u' : Str) ≠ t!"auth_level." ++ nameFor r.aliases u := by
      intro u l u' hu e
      have e' : (t!"ns." ++ nameFor r.aliases u' : Str) = nameFor r.aliases u := by
        have : (t!"auth_level." ++ (t!"ns." ++ nameFor r.aliases u') : Str) = t!"auth_level." ++ nameFor r.aliases u := e
        exact List.append_cancel_left this
      have := hns u l _ hu (hname u l hu)
      rw [← e'] at this
      rw [(startsWith_iff _ _).2 ⟨_, rfl⟩] at this
      cases this
    rcases (hmem k v).1 hv with ⟨ek, ev⟩ | ⟨u, l, hu, ⟨ek, ev⟩ | ⟨ek, ev⟩⟩ | ⟨ek, ev⟩ <;>
    rcases (hmem k w).1 hw with ⟨ek', ew⟩ | ⟨u', l', hu', ⟨ek', ew⟩ | ⟨ek', ew⟩⟩ | ⟨ek', ew⟩ <;>
    have e := ek.symm.trans ek' <;>
    first
      | exact absurd e (d1 _) | exact absurd e (d2 _) | exact absurd e (d3 _) | exact absurd e (d4 _) | exact absurd e d5
      | exact absurd e.symm (d1 _) | exact absurd e.symm (d2 _) | exact absurd e.symm (d3 _) | exact absurd e.symm (d4 _)
      | exact absurd e.symm d5
      | exact absurd e (hmix _ _ _ hu') | exact absurd e.symm (hmix _ _ _ hu)
      | skip
    · rw [ev, ew]
    · rw [ev, ew]; exact hself _ _ _ _ hu hu' (List.append_cancel_left e)
    · have := hself _ _ _ _ hu hu' (List.append_cancel_left e)
      subst this
      rw [hu] at hu'; cases hu'
      rw [ev, ew]
    · rw [ev] at ew; cases ew; rfl

theorem policiesBad_iff (o : Option Str) : policiesBad o = false ↔
    (∃ s, o = some s ∧ s ≠ []) ∧ t!"none" ∉ parts o ∧ (AUTH_NONE ∈ parts o → (parts o).length ≤ 1) := by
  match o with
  | none => simp [policiesBad]
  | some [] => simp [policiesBad]
  | some (c :: cs) =>
    unfold policiesBad
    rw [sentPolicies_eq]
    generalize parts (some (c :: cs)) = l
    simp only [Bool.false_or, Bool.or_eq_false_iff, Bool.and_eq_false_iff, decide_eq_false_iff_not]
    have h1 : ∀ x : Str, l.contains x = false ↔ x ∉ l := by
      intro x; rw [← Bool.not_eq_true, List.contains_iff_mem]
    rw [h1, h1]
    constructor
    · rintro ⟨h | h, h2⟩
      · exact ⟨⟨_, rfl, by simp⟩, h2, fun _ => by omega⟩
      · exact ⟨⟨_, rfl, by simp⟩, h2, fun h' => absurd h' h⟩
    · rintro ⟨-, h2, h⟩
      refine ⟨?_, h2⟩
      by_cases h' : AUTH_NONE ∈ l
      · left; have := h h'; omega
      · exact .inr h'

/-- C47: Parsing arguments into a new response: exactly when it works, what the response says then, and what is raised
    otherwise.  If several aliases stand for one level, the last argument counts. -/
theorem c47_response_parse (X : ExtraDigits) (args : Dict Str Str) (hw : Dict.WF args) (openid1 strict : Bool) :
    let policies := parts (args.get? t!"auth_policies")
    let NoMisuse := ∀ a u l, HasLevel args openid1 a u l → ¬ Misused a u
    let Proper := (∃ s, args.get? t!"auth_policies" = some s ∧ s ≠ []) ∧ t!"none" ∉ policies ∧
      (AUTH_NONE ∈ policies → policies.length ≤ 1) ∧
      (∀ a l, args.get? (t!"auth_level." ++ a) = some l → startsWith a t!"ns." = false → standsFor args openid1 a ≠ none) ∧
      ∀ t, args.get? t!"auth_time" = some t → t ≠ [] → IsTime X t
    (NoMisuse → (strict = true → Proper) → ∃ r, Response.parseExtensionArgs X {} args openid1 strict = .ok r) ∧
    (∀ r, Response.parseExtensionArgs X {} args openid1 strict = .ok r → NoMisuse ∧ (strict = true → Proper) ∧ ResponseOk r ∧
      r.policies = policies.filter (fun p => p ≠ t!"none" ∧ p ≠ AUTH_NONE) ∧
      (∀ t, r.authTime = some t ↔ args.get? t!"auth_time" = some t ∧ IsTime X t) ∧
      (∀ u l, r.levels.get? u = some l ↔ ∃ pre a post, args = pre ++ (t!"auth_level." ++ a, l) :: post ∧ HasLevel args openid1 a u l ∧
        ∀ b l', (t!"auth_level." ++ b, l') ∈ post → ¬ HasLevel args openid1 b u l')) ∧
    ∀ e, Response.parseExtensionArgs X {} args openid1 strict = .error e →
      e = .keyError ∧ ¬ NoMisuse ∨ e = .valueError ∧ strict = true ∧ ¬ Proper := by
  intro policies NoMisuse Proper
  have hmem : ∀ k v, (k, v) ∈ args ↔ args.get? k = some v := fun k v =>
    ⟨fun h => Dict.get?_of_mem _ hw _ _ h, fun h => Dict.get?_mem _ _ _ h⟩
  have hnil : ¬ IsTime X [] := by
    intro h
    have := (timeOk_iff X []).2 h
    cases this
  -- the time
  have htime : ∀ r : Response, r.authTime = none →
      ((∃ r', r.parseTime X (args.get? t!"auth_time") strict = .ok r' ∧ r'.policies = r.policies ∧ r'.levels = r.levels ∧
        r'.aliases = r.aliases ∧ (∀ t, r'.authTime = some t ↔ args.get? t!"auth_time" = some t ∧ IsTime X t) ∧
        (strict = true → ∀ t, args.get? t!"auth_time" = some t → t ≠ [] → IsTime X t)) ∨
      r.parseTime X (args.get? t!"auth_time") strict = .error .valueError ∧ strict = true ∧
        ¬ ∀ t, args.get? t!"auth_time" = some t → t ≠ [] → IsTime X t) := by
    intro r hr
    unfold Response.parseTime
    match args.get? t!"auth_time" with
    | none => left; exact ⟨r, rfl, rfl, rfl, rfl, by simp [hr], by simp⟩
    | some [] =>
      left
      refine ⟨r, rfl, rfl, rfl, rfl, ?_, ?_⟩
      · intro t
        rw [hr]
        constructor
        · intro h; cases h
        · rintro ⟨h, h'⟩; cases h; exact absurd h' hnil
      · intro _ t h hne; cases h; exact absurd rfl hne
    | some (c :: cs) =>
      simp only
      cases h : timeOk X (c :: cs) with
      | true =>
        have ht := (timeOk_iff X _).1 h
        left
        refine ⟨_, rfl, rfl, rfl, rfl, ?_, ?_⟩
        · intro t
          simp only [Option.some.injEq]
          constructor
          · intro e; subst e; exact ⟨rfl, ht⟩
          · exact fun h => h.1
        · intro _ t e _; cases e; exact ht
      | false =>
        have ht : ¬ IsTime X (c :: cs) := fun h' => by rw [(timeOk_iff X _).2 h'] at h; cases h
        cases strict with
        | true =>
          right
          exact ⟨rfl, rfl, fun h => ht (h _ rfl (by simp))⟩
        | false =>
          left
          refine ⟨r, rfl, rfl, rfl, rfl, ?_, by simp⟩
          intro t
          rw [hr]
          constructor
          · intro h; cases h
          · rintro ⟨h, h'⟩; cases h; exact absurd h' ht
  rw [Response.parseExtensionArgs]
  have hbad := policiesBad_iff (args.get? t!"auth_policies")
  by_cases hb : strict = true ∧ policiesBad (args.get? t!"auth_policies") = true
  · obtain ⟨rfl, hb⟩ := hb
    simp only [hb, Bool.true_and, if_true, throw_eq_error, error_bind]
    have hnp : ¬ Proper := by
      intro h
      rw [hbad.2 ⟨h.1, h.2.1, h.2.2.1⟩] at hb
      cases hb
    refine ⟨fun _ h => absurd (h trivial) hnp, fun r h => by (cases h), ?_⟩
    intro e h
    cases h
    exact .inr ⟨rfl, trivial, hnp⟩
  · have hcond : (strict && policiesBad (args.get? t!"auth_policies")) = false := by
      cases strict with
      | false => rfl
      | true =>
        cases h : policiesBad (args.get? t!"auth_policies") with
        | false => rfl
        | true => exact absurd ⟨rfl, h⟩ hb
    have hpre : strict = true → (∃ s, args.get? t!"auth_policies" = some s ∧ s ≠ []) ∧ t!"none" ∉ policies ∧
        (AUTH_NONE ∈ policies → policies.length ≤ 1) := by
      rintro rfl
      apply hbad.1
      simpa using hcond
    simp only [hcond, Bool.false_eq_true, if_false, sentPolicies_eq]
    have hpol : (parts (args.get? t!"auth_policies")).filter (fun u => !([t!"none", AUTH_NONE].contains u)) =
        policies.filter (fun p => p ≠ t!"none" ∧ p ≠ AUTH_NONE) := by
      apply List.filter_congr
      intro p _
      by_cases h1 : p = t!"none" <;> by_cases h2 : p = AUTH_NONE <;> simp [h1, h2]
    rw [hpol]
    obtain ⟨g1, g2, g3⟩ := parseLevels_response args openid1 strict args
      { policies := policies.filter (fun p => p ≠ t!"none" ∧ p ≠ AUTH_NONE) } (parsing_default args openid1)
    have hhas : ∀ a u l, ((t!"auth_level." ++ a, l) ∈ args ∧ Lv args openid1 a u) ↔ HasLevel args openid1 a u l := by
      intro a u l; rw [hmem]; exact Iff.rfl
    refine ⟨?_, ?_, ?_⟩
    · intro hm hp
      obtain ⟨r', hr'⟩ := g2 (fun a v u ha hu => hm a u v ((hhas a u v).1 ⟨ha, hu⟩))
        (fun hs a v ha => (hp hs).2.2.2.1 a v ((hmem _ _).1 ha))
      obtain ⟨-, -, k3, k4, -⟩ := g1 r' hr'
      rcases htime r' k4 with ⟨r'', h1, -⟩ | ⟨-, h2, h3⟩
      · refine ⟨r'', ?_⟩
        rw [hr']; exact h1
      · exact absurd (hp h2).2.2.2.2 h3
    · intro r hr
      obtain ⟨r1, hr1, hr⟩ := bind_eq_ok.1 hr
      obtain ⟨k1, k2, k3, k4, k5, k6, k7⟩ := g1 r1 hr1
      have k4' : r1.authTime = none := k4
      rcases htime r1 k4' with ⟨r2, q1, q2, q3, q4, q5, q6⟩ | ⟨q1, -⟩
      · rw [q1] at hr; cases hr
        have hlev : ∀ u l, r.levels.get? u = some l ↔ ∃ pre a post, args = pre ++ (t!"auth_level." ++ a, l) :: post ∧
            HasLevel args openid1 a u l ∧ ∀ b l', (t!"auth_level." ++ b, l') ∈ post → ¬ HasLevel args openid1 b u l' := by
          intro u l
          rw [q3, k7]
          constructor
          · rintro (⟨pre, a, post, p1, p2, p3⟩ | ⟨-, h⟩)
            · have hin : ∀ x, x ∈ post → x ∈ args := by
                intro x hx; rw [p1]; simp [hx]
              have ha : (t!"auth_level." ++ a, l) ∈ args := by rw [p1]; simp
              refine ⟨pre, a, post, p1, (hhas a u l).1 ⟨ha, p2⟩, ?_⟩
              intro b l' hb h
              exact p3 b l' hb ((hhas b u l').2 h).2
            · cases h
          · rintro ⟨pre, a, post, p1, p2, p3⟩
            left
            refine ⟨pre, a, post, p1, ((hhas a u l).2 p2).2, ?_⟩
            intro b l' hb h
            refine p3 b l' hb ((hhas b u l').1 ⟨?_, h⟩)
            rw [p1]; simp only [List.mem_append, List.mem_cons]; exact .inr (.inr hb)
        refine ⟨?_, ?_, ⟨by rw [q4]; exact k5.ok, by rw [q3]; exact k6 Dict.WF_nil, ?_⟩, by rw [q2, k3], q5, hlev⟩
        · intro a u l h
          obtain ⟨h1, h2⟩ := (hhas a u l).2 h
          exact k1 a l u h1 h2
        · intro hs
          exact ⟨(hpre hs).1, (hpre hs).2.1, (hpre hs).2.2, fun a l h => k2 hs a l ((hmem _ _).2 h), q6 hs⟩
        · intro u l hu
          obtain ⟨pre, a, post, p1, p2, -⟩ := (hlev u l).1 hu
          refine ⟨a, ?_⟩
          rw [q4]
          exact parseLevels_response_aliases args openid1 strict args _ r1 (parsing_default args openid1) hr1 |>.1 a l u (by rw [p1]; simp) p2.2
      · rw [q1] at hr; cases hr
    · intro e he
      rcases bind_eq_error.1 he with he | ⟨r1, hr1, he⟩
      · rcases g3 e he with ⟨p1, a, v, u, p2, p3, p4⟩ | ⟨p1, p2, a, v, p3, p4, p5⟩
        · exact .inl ⟨p1, fun h => h a u v ((hhas a u v).1 ⟨p2, p3⟩) p4⟩
        · exact .inr ⟨p1, p2, fun h => h.2.2.2.1 a v ((hmem _ _).1 p3) p4 p5⟩
      · have k4' : r1.authTime = none := (g1 r1 hr1).2.2.2.1
        rcases htime r1 k4' with ⟨r2, q1, -⟩ | ⟨q1, q2, q3⟩
        · rw [q1] at he; cases he
        · rw [q1] at he; cases he
          exact .inr ⟨rfl, q2, fun h => q3 h.2.2.2.2⟩

end Props
