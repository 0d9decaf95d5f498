import Verif.Props.PapeArrive
/-! # C47: draft 2 of PAPE as objects, and new responses -/

namespace Props
open Py Pape Spec Message

theorem setAll_spec (l : List (Str × Str)) (r : Response) (hr : ResponseOk r) :
    (∃ r', r.setAll l = .ok r' ∧ ResponseOk r' ∧ r'.policies = r.policies ∧ r'.authTime = r.authTime ∧
      r'.levels = l.foldl (fun d p => d.set p.1 p.2) r.levels) ∨ r.setAll l = .error .runtimeError := by
  induction l generalizing r with
  | nil => exact .inl ⟨r, rfl, hr, rfl, rfl, rfl⟩
  | cons p ps ih =>
    rw [Response.setAll]
    rcases c47_set_level r hr p.1 p.2 none with ⟨m, r1, h1, h2, h3, h4, h5, -⟩ | ⟨e, h1, h2⟩
    · rw [h2]
      have hl : r1.levels = r.levels.set p.1 p.2 := by
        rw [Response.setAuthLevel] at h2
        obtain ⟨m', -, hg⟩ := bind_eq_ok.1 h2
        cases hg; rfl
      rcases ih r1 (responseOk_level hr h2) with ⟨r', g1, g2, g3, g4, g5⟩ | g1
      · exact .inl ⟨r', g1, g2, by rw [g3, h3], by rw [g4, h4], by rw [g5, hl]; rfl⟩
      · exact .inr g1
    · rw [h2]
      refine .inr ?_
      have : e = .runtimeError := by
        cases h1 with
        | clash a w h => cases h
        | full => rfl
      rw [this]; rfl

/-- C47: A new response has the policies, the time and the levels that are given; it cannot be made if there are too many
    levels. -/
theorem c47_response_new (policies : List Str) (time : Option Str) (levels : Dict Str Str) (hw : Dict.WF levels) :
    (∃ r, Response.new policies time levels = .ok r ∧ ResponseOk r ∧ r.policies = policies ∧ r.authTime = time ∧
      ∀ u l, r.getAuthLevel u = .ok l ↔ levels.get? u = some l) ∨
    Response.new policies time levels = .error .runtimeError := by
  rcases setAll_spec levels _ (responseOk_new policies time) with ⟨r, h1, h2, h3, h4, h5⟩ | h
  · refine .inl ⟨r, h1, h2, h3, h4, fun u l => ?_⟩
    have hl : r.levels.get? u = levels.get? u := by
      rw [h5]
      show Dict.get? (Dict.ofPairs levels) u = _
      rw [Dict.ofPairs_eq_self _ hw]
    rw [Response.getAuthLevel, hl]
    cases levels.get? u <;> simp
  · exact .inr h

/-- C47: Adding policies to a request or a response of draft 2: each is there once, in the order of the additions, and
    nothing else changes. -/
theorem c47_draft2_policies (r : Request2) (s : Response2) (us : List Str) :
    let r' := us.foldl Request2.addPolicyURI r
    let s' := us.foldl Response2.addPolicyURI s
    (r'.policies = us.foldl once r.policies ∧ r'.maxAge = r.maxAge) ∧
    (s'.policies = us.foldl once s.policies ∧ s'.authTime = s.authTime ∧ s'.nist = s.nist) ∧
    (∀ u, u ∈ us.foldl once r.policies ↔ u ∈ r.policies ∨ u ∈ us) ∧
    (r.policies.Nodup → (us.foldl once r.policies).Nodup) := by
  intro r' s'
  have h1 : r'.policies = us.foldl once r.policies ∧ r'.maxAge = r.maxAge := by
    simp only [r']
    clear r' s'
    induction us generalizing r with
    | nil => exact ⟨rfl, rfl⟩
    | cons u us ih =>
      obtain ⟨h1, h2⟩ := ih (r.addPolicyURI u)
      simp only [List.foldl_cons]
      rw [h1, h2, Request2.addPolicyURI, addOnce_eq]
      exact ⟨rfl, rfl⟩
  have h2 : s'.policies = us.foldl once s.policies ∧ s'.authTime = s.authTime ∧ s'.nist = s.nist := by
    simp only [s']
    clear h1 r' s'
    induction us generalizing s with
    | nil => exact ⟨rfl, rfl, rfl⟩
    | cons u us ih =>
      obtain ⟨h1, h2, h3⟩ := ih (s.addPolicyURI u)
      simp only [List.foldl_cons]
      rw [h1, h2, h3, Response2.addPolicyURI, addOnce_eq]
      exact ⟨rfl, rfl, rfl⟩
  refine ⟨h1, h2, ?_, ?_⟩
  · clear h1 h2 r' s'
    generalize r.policies = l
    induction us generalizing l with
    | nil => simp
    | cons u us ih =>
      intro w
      rw [List.foldl_cons, ih]
      simp only [once]
      split <;> simp <;> grind
  · clear h1 h2 r' s'
    generalize r.policies = l
    induction us generalizing l with
    | nil => simp
    | cons u us ih =>
      intro hn
      rw [List.foldl_cons]
      apply ih
      rw [← addOnce_eq]
      exact addOnce_nodup hn u

/-- C47: The preferred types of draft 2 are those of the supported ones that the request has, in the order of the supported
    ones. -/
theorem c47_draft2_preferred (r : Request2) (supported : List Str) :
    (∀ p, p ∈ r.preferredTypes supported ↔ p ∈ supported ∧ p ∈ r.policies) ∧ (r.preferredTypes supported).Sublist supported ∧
    ∀ p ∈ r.policies, (r.preferredTypes supported).count p = supported.count p := by
  refine ⟨?_, List.filter_sublist, ?_⟩
  · intro p; simp [Request2.preferredTypes]
  · intro p hp
    rw [Request2.preferredTypes, List.count_filter]
    simpa using hp

/-- C47: What a provider of draft 2 makes of a message: no request exactly if the message has no argument of the extension,
    otherwise the request that the arguments say. -/
theorem c47_draft2_from_request (X : ExtraDigits) {reg : Dict Str Str} {m : Msg} (hm : Built reg m) :
    ∃ args, Dict.WF args ∧ (∀ k, m.getArg (.uri t!"http://specs.openid.net/extensions/pape/1.0") k = .ok (args.get? k)) ∧
      (Request2.fromOpenIDRequest X m = .ok none ↔ ∀ k, args.get? k = none) ∧
      ((∃ k, args.get? k ≠ none) → Request2.fromOpenIDRequest X m = .ok (some (Request2.parseExtensionArgs X args))) := by
  obtain ⟨args, hargs⟩ : ∃ args, m.getArgs (.uri nsUri) = .ok args := by
    rw [Msg.getArgs, Msg.fixNS]; exact ⟨_, rfl⟩
  obtain ⟨hw, hg⟩ := c09_getArgs reg m hm _ args hargs
  refine ⟨args, hw, hg, ?_⟩
  rw [Request2.fromOpenIDRequest, hargs]
  simp only [ok_bind]
  cases args with
  | nil => simp
  | cons p d =>
    have hsome : ∃ k, Dict.get? (p :: d) k ≠ none := ⟨p.1, by rw [show p = (p.1, p.2) from rfl, Dict.get?_cons]; simp⟩
    have hnot : ¬ ∀ k, Dict.get? (p :: d) k = none := fun h => by obtain ⟨k, hk⟩ := hsome; exact hk (h k)
    simp only [List.isEmpty_cons, Bool.false_eq_true, if_false]
    exact ⟨⟨fun h => (by cases h), fun h => absurd h hnot⟩, fun _ => rfl⟩

/-- C47: A draft 2 response that is made of a message says what the arguments of the message say, and each of them is
    signed; there is none exactly if some argument of the extension is not signed; nothing is ever raised. -/
theorem c47_draft2_from_success (X : ExtraDigits) {reg q : Dict Str Str} {m : Msg} (h : Arrived reg q m) (names : List Str) :
    (∀ r, Response2.fromSuccessResponse X m (names.map (t!"openid." ++ ·)) = .ok (some r) →
      ∃ args, Dict.WF args ∧ (∀ k, m.getArg (.uri nsUri) k = .ok (args.get? k)) ∧
        (∀ k v, args.get? k = some v → ∃ n ∈ names, m.getKey (.uri nsUri) k = .ok (some (t!"openid." ++ n)) ∧
          q.get? (t!"openid." ++ n) = some v) ∧
        Response2.parseExtensionArgs X {} args false = .ok r) ∧
    (Response2.fromSuccessResponse X m (names.map (t!"openid." ++ ·)) = .ok none ↔
      ∃ key v K, m.getArg (.uri nsUri) key = .ok (some v) ∧ m.getKey (.uri nsUri) key = .ok (some K) ∧
        K ∉ names.map (t!"openid." ++ ·)) := by
  have hex : ∃ o, m.getArg (.uri nsUri) [] = .ok o := by
    rw [Msg.getArg, Msg.fixNS]
    exact ⟨_, rfl⟩
  constructor
  · intro r hr
    rw [Response2.fromSuccessResponse] at hr
    obtain ⟨o, h1, hr⟩ := bind_eq_ok.1 hr
    cases o with
    | none => cases hr
    | some args =>
      obtain ⟨r', h2, hr⟩ := bind_eq_ok.1 hr
      cases hr
      obtain ⟨g1, g2, g3⟩ := c39_getSignedNS h names _ args h1
      refine ⟨args, g1, g2, ?_, h2⟩
      intro k v hv
      obtain ⟨f, k1, k2, k3, -⟩ := g3 k v hv
      exact ⟨f, k1, k2, k3⟩
  · rw [← c39_getSignedNS_none h _ (.uri nsUri) hex, Response2.fromSuccessResponse]
    constructor
    · intro hr
      obtain ⟨o, h1, hr⟩ := bind_eq_ok.1 hr
      cases o with
      | none => exact h1
      | some args =>
        obtain ⟨r', -, hr⟩ := bind_eq_ok.1 hr
        cases hr
    · intro hr; rw [hr]; rfl

example : Dict.WF ([(LEVELS_NIST, t!"2"), (t!"http://l/", t!"x")] : Dict Str Str) ∧
    ∃ r, Response.new [t!"http://p/"] none [(LEVELS_NIST, t!"2"), (t!"http://l/", t!"x")] = .ok r ∧
      r.getAuthLevel t!"http://l/" = .ok t!"x" := ⟨by decide, _, rfl, by decide⟩
example : ([t!"a", t!"b", t!"a"].foldl Request2.addPolicyURI {}).policies = [t!"a", t!"b"] := by decide

end Props
