import Verif.Lemmas.TrustRoot
import Verif.Props.Urinorm
/-! # C27, C28, C29: realms and return URLs

Specification: `Verif/Spec/TrustRoot.lean`.  `locate U url` is where a URL points after normalisation; `U` stands
for the Unicode-dependent parts of the standard library and is arbitrary. -/

namespace Props
open Py TrustRoot Spec

/-! ## C27 -/

/-- **C27** `TrustRoot.checkURL(realm, url)`, that is `parse` and `validateURL`, is True exactly when the realm is a
    realm and covers the URL. -/
theorem c27_match (U : Url.Uni) (realm url : Str) :
    checkURL U realm url = .ok true ↔
      ∃ L R, locate U realm = some L ∧ locate U url = some R ∧ IsRealm L ∧ Covers L R := by
  unfold checkURL
  rcases parse_cases U realm with ⟨h, h1⟩ | ⟨e, h, -, h2, -⟩ | ⟨L, q, w, h, h1, h2, h3, h4, h5⟩
  · rw [h]
    simp only [Except.ok.injEq, Bool.false_eq_true, false_iff]
    rintro ⟨L, R, e1, e2, e3, e4⟩
    rcases h1 with ⟨-, h1⟩ | ⟨L', h1, h2⟩ | ⟨-, h1⟩
    · rw [e1] at h1; cases h1
    · rw [e1] at h1; cases h1; exact h2 e3
    · rw [e1] at h1; cases h1
  · rw [h]
    simp [h2]
  · rw [h5]
    simp only
    rcases validate_cases (U := U) (realm := realm) h3 h4 url with ⟨b, e1, e2⟩ | ⟨e, e1, -, e2, -⟩
    · rw [e1, Except.ok.injEq, e2]
      constructor
      · rintro ⟨R, e3, e4⟩; exact ⟨L, R, h1, e3, h2, e4⟩
      · rintro ⟨L', R, e3, e4, -, e5⟩
        rw [h1] at e3; cases e3
        exact ⟨R, e4, e5⟩
    · rw [e1]; simp [e2]

/-- **C27** otherwise it is False, unless one of the two has a normal form without a proper host or port: then it
    may raise. -/
theorem c27_total (U : Url.Uni) (realm url : Str) (e : PyErr) (h : checkURL U realm url = .error e) :
    (e = .valueError ∨ e = .attributeError ∨ e = .typeError) ∧
    (((∃ r, Urinorm.urinorm U realm = .ok r) ∧ locate U realm = none) ∨
     ((∃ r, Urinorm.urinorm U url = .ok r) ∧ locate U url = none)) := by
  unfold checkURL at h
  rcases parse_cases U realm with ⟨h0, -⟩ | ⟨e', h0, h1, h2, h3⟩ | ⟨L, q, w, h', h1, h2, h3, h4, h5⟩
  · rw [h0] at h; cases h
  · rw [h0] at h; cases h; exact ⟨by grind, .inl ⟨h1, h2⟩⟩
  · rw [h5] at h
    simp only at h
    rcases validate_cases (U := U) (realm := realm) h3 h4 url with ⟨b, e1, -⟩ | ⟨e', e1, e2, e3, e4⟩
    · rw [e1] at h; cases h
    · rw [e1] at h; cases h; exact ⟨by grind, .inr ⟨e2, e3⟩⟩

/-- it does raise: no host -/
theorem c27_raises : checkURL uni0 t!"http://:8080/" t!"http://a.com/" = .error .attributeError ∧
    checkURL uni0 t!"http://a.com:8080/" t!"http://:8080/" = .error .typeError ∧
    checkURL uni0 t!"http://a.com/" t!"http://a%3Ax/" = .error .valueError := by decide +kernel

/-- **C27** the parsed realm and `validateURL` separately -/
theorem c27_validate (U : Url.Uni) (realm url : Str) (r : Realm) (h : parse U realm = .ok (some r)) :
    validateURL U r url = .ok true ↔ ∃ L R, locate U realm = some L ∧ locate U url = some R ∧ Covers L R := by
  rcases parse_cases U realm with ⟨h0, -⟩ | ⟨e', h0, -⟩ | ⟨L, q, w, h', h1, h2, h3, h4, h5⟩
  · rw [h0] at h; cases h
  · rw [h0] at h; cases h
  · rw [h5] at h
    cases h
    rcases validate_cases (U := U) (realm := realm) h3 h4 url with ⟨b, e1, e2⟩ | ⟨e, e1, -, e2, -⟩
    · rw [e1, Except.ok.injEq, e2]
      constructor
      · rintro ⟨R, e3, e4⟩; exact ⟨L, R, h1, e3, e4⟩
      · rintro ⟨L', R, e3, e4, e5⟩
        rw [h1] at e3; cases e3
        exact ⟨R, e4, e5⟩
    · rw [e1]; simp [e2]

/-- **C27** `parse` answers with a realm exactly for realms. -/
theorem c27_parse (U : Url.Uni) (realm : Str) :
    (∃ r, parse U realm = .ok (some r)) ↔ ∃ L, locate U realm = some L ∧ IsRealm L := by
  rcases parse_cases U realm with ⟨h, h1⟩ | ⟨e, h, -, h2, -⟩ | ⟨L, q, w, h, h1, h2, h3, h4, h5⟩
  · rw [h]
    simp only [Except.ok.injEq, reduceCtorEq, exists_false, false_iff]
    rintro ⟨L, e1, e2⟩
    rcases h1 with ⟨-, h1⟩ | ⟨L', h1, h2⟩ | ⟨-, h1⟩
    · rw [e1] at h1; cases h1
    · rw [e1] at h1; cases h1; exact h2 e2
    · rw [e1] at h1; cases h1
  · rw [h]; simp [h2]
  · rw [h5]; exact ⟨fun _ => ⟨L, h1, h2⟩, fun _ => ⟨_, rfl⟩⟩

/-- **C27** a realm without star covers itself. -/
theorem c27_self (U : Url.Uni) (realm : Str) (L : Location) (h : locate U realm = some L) (hr : IsRealm L)
    (hs : '*' ∉ L.host) : checkURL U realm realm = .ok true :=
  (c27_match U realm realm).2 ⟨L, L, h, h, hr, rfl, rfl, ⟨hs, .inl rfl⟩, .inl rfl⟩

/-- **C27** coverage composes: a realm that covers another (starless) realm covers all that the other covers. -/
theorem c27_transitive (U : Url.Uni) (a b c : Str) (h1 : checkURL U a b = .ok true) (h2 : checkURL U b c = .ok true) :
    checkURL U a c = .ok true := by
  rw [c27_match] at *
  obtain ⟨A, B, hA, hB, hr, c1, c2, c3, c4⟩ := h1
  obtain ⟨B', C, hB', hC, -, d1, d2, d3, d4⟩ := h2
  rw [hB] at hB'
  cases hB'
  refine ⟨A, C, hA, hC, hr, c1.trans d1, c2.trans d2, ?_, ?_⟩
  · have : B.host = C.host := by
      rcases d3.2 with h | h | ⟨d, h, -⟩
      · exact h
      · have := c3.1; rw [h] at this; simp at this
      · have := c3.1; rw [h] at this; simp at this
    rw [← this]
    exact c3
  · rcases c4 with h | ⟨r1, h, hb⟩
    · rw [h]; exact d4
    · rcases d4 with h' | ⟨r2, h', hb2⟩
      · exact .inr ⟨r1, by rw [← h', h], hb⟩
      · cases r1 with
        | nil =>
          simp only [List.append_nil] at h
          rw [← h]
          exact .inr ⟨r2, h', hb2⟩
        | cons x r1 => exact .inr ⟨x :: (r1 ++ r2), by rw [h', h]; simp, by simpa using hb⟩

/-- **C27** finding: the realm of one star matches every host -/
theorem c27_any_host : checkURL uni0 t!"http://*/" t!"http://victim.example.com/any" = .ok true := by decide +kernel

/-- **C27** finding: user names in the URL play no part -/
theorem c27_userinfo : checkURL uni0 t!"http://a.com/" t!"http://user:pw@a.com/x" = .ok true := by decide +kernel

example : checkURL uni0 t!"http://*.example.com/foo" t!"HTTP://WWW.Example.Com:80/bar/../foo/x?y=1" = .ok true ∧
    checkURL uni0 t!"http://*.example.com/foo" t!"http://example.com/foo?y=1" = .ok true ∧
    checkURL uni0 t!"http://*.example.com/foo" t!"http://evilexample.com/foo" = .ok false ∧
    checkURL uni0 t!"http://*.example.com/foo" t!"http://www.example.com/foobar" = .ok false ∧
    checkURL uni0 t!"http://*.example.com/foo" t!"http://www.example.com/foo/../bar" = .ok false ∧
    checkURL uni0 t!"http://example.com/foo?a=b" t!"http://example.com/foo?a=b&c=d" = .ok true ∧
    checkURL uni0 t!"http://example.com/foo?a=b" t!"http://example.com/foo?a=bc" = .ok false ∧
    checkURL uni0 t!"http://*.example.com/foo" t!"https://www.example.com/foo" = .ok false ∧
    checkURL uni0 t!"http://*.example.com/foo" t!"http://www.example.com:8080/foo" = .ok false ∧
    checkURL uni0 t!"http://www.*.com/foo" t!"http://www.example.com/foo" = .ok false := by decide +kernel

/-! ## C28 -/

/-- **C28** `checkSanity(realm)`, that is `parse` and `isSane`, is True exactly for realms on localhost and on a
    domain one can be held responsible for. -/
theorem c28_sane (U : Url.Uni) (realm : Str) :
    checkSanity U realm = .ok true ↔ ∃ L, locate U realm = some L ∧ IsRealm L ∧
      (L.host = t!"localhost" ∨ SaneDomain topLevelDomains (domain L.host).1 (domain L.host).2) := by
  unfold checkSanity
  rcases parse_cases U realm with ⟨h, h1⟩ | ⟨e, h, -, h2, -⟩ | ⟨L, q, w, h, h1, h2, h3, h4, h5⟩
  · rw [h]
    simp only [Except.ok.injEq, Bool.false_eq_true, false_iff]
    rintro ⟨L, e1, e2, -⟩
    rcases h1 with ⟨-, h1⟩ | ⟨L', h1, h2⟩ | ⟨-, h1⟩
    · rw [e1] at h1; cases h1
    · rw [e1] at h1; cases h1; exact h2 e2
    · rw [e1] at h1; cases h1
  · rw [h]; simp [h2]
  · rw [h5]
    simp only
    obtain ⟨b, e1, e2⟩ := isSane_iff h4 realm L.scheme (widen L.path) L.port
    rw [e1, Except.ok.injEq, e2]
    constructor
    · intro h; exact ⟨L, h1, h2, h⟩
    · rintro ⟨L', e3, -, e4⟩
      rw [h1] at e3; cases e3; exact e4

/-- **C28** `isSane` never raises on a parsed realm. -/
theorem c28_total (U : Url.Uni) (realm : Str) (r : Realm) (h : parse U realm = .ok (some r)) :
    ∃ b, isSane r = .ok b := by
  rcases parse_cases U realm with ⟨h0, -⟩ | ⟨e', h0, -⟩ | ⟨L, q, w, h', h1, h2, h3, h4, h5⟩
  · rw [h0] at h; cases h
  · rw [h0] at h; cases h
  · rw [h5] at h
    cases h
    obtain ⟨b, hb, -⟩ := isSane_iff h4 realm L.scheme (widen L.path) L.port
    exact ⟨b, hb⟩

/-- **C28** a pattern over a top-level domain is never sane. -/
theorem c28_tld (U : Url.Uni) (realm d : Str) (L : Location) (h : locate U realm = some L)
    (hh : L.host = '*' :: '.' :: d) (hd : '.' ∉ d) : checkSanity U realm ≠ .ok true := by
  rw [Ne, c28_sane]
  rintro ⟨L', e1, -, e2⟩
  rw [h] at e1
  cases e1
  rw [hh] at e2
  rcases e2 with e2 | ⟨-, f, s, t, e2, -⟩
  · cases e2
  · have : labels (domain ('*' :: '.' :: d)).1 = [d] := by
      simp only [domain, labels]
      rw [if_neg, splitOn_not_mem _ _ hd]
      intro h
      obtain ⟨r, rfl⟩ := (endsWith_iff _ _).1 h
      simp at hd
    rw [this] at e2
    have := congrArg List.length e2
    simp at this

/-- **C28** a pattern over a short second-level domain of a country, like `*.co.uk`, is never sane. -/
theorem c28_registry (U : Url.Uni) (realm s t : Str) (L : Location) (h : locate U realm = some L)
    (hh : L.host = '*' :: '.' :: (s ++ '.' :: t)) (hs : '.' ∉ s) (ht : '.' ∉ t) (hl : s.length ≤ 3) (hl2 : t.length = 2) :
    checkSanity U realm ≠ .ok true := by
  rw [Ne, c28_sane]
  rintro ⟨L', e1, -, e2⟩
  rw [h] at e1
  cases e1
  rw [hh] at e2
  rcases e2 with e2 | ⟨-, f, s', t', e2, -, e3⟩
  · cases e2
  · have : labels (domain ('*' :: '.' :: (s ++ '.' :: t))).1 = [s, t] := by
      simp only [domain, labels]
      rw [if_neg, splitOn_append _ _ _ hs, splitOn_not_mem _ _ ht]
      intro h
      obtain ⟨r, hr⟩ := (endsWith_iff _ _).1 h
      have := congrArg List.getLast? hr
      rw [List.getLast?_append, List.getLast?_append] at this
      have hne : t ≠ [] := by rintro rfl; simp at hl2
      have hm := List.mem_of_getLast? (List.getLast?_eq_some_getLast hne)
      rw [List.getLast?_cons, List.getLast?_eq_some_getLast hne] at this
      simp only [Option.getD_some, Option.some_or, Option.some.injEq, List.getLast?_singleton] at this
      rw [this] at hm
      exact ht hm
    rw [this] at e2
    have hf : f = [] := by
      have := congrArg List.length e2
      simp at this
      exact this
    subst hf
    simp only [List.nil_append, List.cons.injEq, and_true] at e2
    obtain ⟨rfl, rfl⟩ := e2
    exact e3 rfl hl2 hl rfl

/-- **C28** a realm on a host outside the known top-level domains is never sane, but for localhost itself. -/
theorem c28_unknown (U : Url.Uni) (realm : Str) (L : Location) (h : locate U realm = some L)
    (hh : L.host ≠ t!"localhost") (hd : ∀ tld ∈ topLevelDomains, (labels (domain L.host).1).getLast? ≠ some tld) :
    checkSanity U realm ≠ .ok true := by
  rw [Ne, c28_sane]
  rintro ⟨L', e1, -, e2⟩
  rw [h] at e1
  cases e1
  rcases e2 with e2 | ⟨-, f, s, t, e2, e3, -⟩
  · exact hh e2
  · refine hd t e3 ?_
    rw [e2]
    simp [List.getLast?_append]

example : checkSanity uni0 t!"http://*.example.com/" = .ok true ∧ checkSanity uni0 t!"http://localhost:80/" = .ok true ∧
    checkSanity uni0 t!"http://*.com/" = .ok false ∧ checkSanity uni0 t!"http://*.co.uk/" = .ok false ∧
    checkSanity uni0 t!"http://*.foo.co.uk./" = .ok true ∧ checkSanity uni0 t!"http://*/" = .ok false ∧
    checkSanity uni0 t!"http://intranet/" = .ok false ∧ checkSanity uni0 t!"http://*.localhost/" = .ok false ∧
    checkSanity uni0 t!"http://10.0.0.1/" = .ok false := by decide +kernel

/-! ## C29 -/

theorem matchesOne_iff (U : Url.Uni) (returnTo a : Str) :
    matchesOne U returnTo a = .ok true ↔ Listed U [a] returnTo := by
  unfold matchesOne Listed
  simp only [List.mem_singleton, exists_eq_left]
  rcases parse_cases U a with ⟨h, h1⟩ | ⟨e, h, -, h2, -⟩ | ⟨L, q, w, h, h1, h2, h3, h4, h5⟩
  · rw [h]
    simp only [Except.ok.injEq, Bool.false_eq_true, false_iff]
    rintro ⟨L, R, e1, e2, e3, e4⟩
    rcases h1 with ⟨-, h1⟩ | ⟨L', h1, h2⟩ | ⟨-, h1⟩
    · rw [e1] at h1; cases h1
    · rw [e1] at h1; cases h1; exact h2 e3
    · rw [e1] at h1; cases h1
  · rw [h]; simp [h2]
  · rw [h5]
    simp only
    have hw : w = true ↔ '*' ∈ L.host := by
      rcases parseHost_spec L.host with ⟨e1, e2⟩ | ⟨e1, e2⟩ | ⟨e1, e2⟩ | ⟨d, e1, e2, e3⟩ <;> rw [h4] at e1 <;> cases e1
      · simp [e2]
      · simp [e2]
      · simp [e2]
    by_cases hs : '*' ∈ L.host
    · rw [if_pos (hw.2 hs)]
      simp only [Except.ok.injEq, Bool.false_eq_true, false_iff]
      rintro ⟨L', R, e1, -, -, e2, -⟩
      rw [h1] at e1; cases e1
      exact e2 hs
    · rw [if_neg (fun h => hs (hw.1 h))]
      rcases validate_cases (U := U) (realm := a) h3 h4 returnTo with ⟨b, e1, e2⟩ | ⟨e, e1, -, e2, -⟩
      · rw [e1, Except.ok.injEq, e2]
        constructor
        · rintro ⟨R, e3, e4⟩; exact ⟨L, R, h1, e3, h2, hs, e4⟩
        · rintro ⟨L', R, e3, e4, -, -, e5⟩
          rw [h1] at e3; cases e3
          exact ⟨R, e4, e5⟩
      · rw [e1]; simp [e2]

/-- **C29** `returnToMatches` is True only if a listed URL without star covers the return URL. -/
theorem c29_matches (U : Url.Uni) (allowed : List Str) (returnTo : Str)
    (h : returnToMatches U returnTo allowed = .ok true) : Listed U allowed returnTo := by
  induction allowed with
  | nil => cases h
  | cons a rest ih =>
    rw [returnToMatches] at h
    obtain ⟨b, h1, h2⟩ := bind_eq_ok.1 h
    cases b with
    | true =>
      obtain ⟨x, hx, h3⟩ := (matchesOne_iff U returnTo a).1 h1
      exact ⟨x, by simp only [List.mem_singleton] at hx; simp [hx], h3⟩
    | false =>
      obtain ⟨x, hx, h3⟩ := ih h2
      exact ⟨x, by simp [hx], h3⟩

/-- **C29** and it is False only if none does. -/
theorem c29_refuses (U : Url.Uni) (allowed : List Str) (returnTo : Str)
    (h : returnToMatches U returnTo allowed = .ok false) : ¬ Listed U allowed returnTo := by
  induction allowed with
  | nil => rintro ⟨a, ha, -⟩; cases ha
  | cons a rest ih =>
    rw [returnToMatches] at h
    obtain ⟨b, h1, h2⟩ := bind_eq_ok.1 h
    cases b with
    | true => cases h2
    | false =>
      rintro ⟨x, hx, h3⟩
      rcases List.mem_cons.1 hx with rfl | hx
      · rw [(matchesOne_iff U returnTo x).2 ⟨x, by simp, h3⟩] at h1
        cases h1
      · exact ih h2 ⟨x, hx, h3⟩

/-- **C29** with nothing odd in the list or the return URL it answers one of the two. -/
theorem c29_total (U : Url.Uni) (allowed : List Str) (returnTo : Str)
    (hr : ∀ r, Urinorm.urinorm U returnTo = .ok r → locate U returnTo ≠ none)
    (ha : ∀ a ∈ allowed, ∀ r, Urinorm.urinorm U a = .ok r → locate U a ≠ none) :
    ∃ b, returnToMatches U returnTo allowed = .ok b := by
  induction allowed with
  | nil => exact ⟨_, rfl⟩
  | cons a rest ih =>
    have h1 : ∃ b, matchesOne U returnTo a = .ok b := by
      unfold matchesOne
      rcases parse_cases U a with ⟨h, -⟩ | ⟨e, h, ⟨r, hr⟩, h2, -⟩ | ⟨L, q, w, h, h1, h2, h3, h4, h5⟩
      · rw [h]; exact ⟨_, rfl⟩
      · exact absurd h2 (ha a (by simp) r hr)
      · rw [h5]
        simp only
        split
        · exact ⟨_, rfl⟩
        · rcases validate_cases (U := U) (realm := a) h3 h4 returnTo with ⟨b, e1, -⟩ | ⟨e, -, ⟨r, hr'⟩, e2, -⟩
          · exact ⟨b, e1⟩
          · exact absurd e2 (hr r hr')
    obtain ⟨b, h1⟩ := h1
    rw [returnToMatches, h1, ok_bind]
    cases b with
    | true => exact ⟨_, rfl⟩
    | false => exact ih fun a' h => ha a' (by simp [h])

theorem build_eq {L : Location} {w : Bool} {h realm : Str} (hp : parseHost L.host = some (w, h)) :
    (L.host = ['*'] ∧ buildDiscoveryURL ⟨realm, L.scheme, w, h, L.port, widen L.path⟩ = .error .assertionError) ∨
    (L.host ≠ ['*'] ∧
      buildDiscoveryURL ⟨realm, L.scheme, w, h, L.port, widen L.path⟩ = .ok (discoveryURL realm L)) := by
  unfold buildDiscoveryURL
  rcases parseHost_spec L.host with ⟨e1, e2⟩ | ⟨e1, e2⟩ | ⟨e1, e2⟩ | ⟨d, e1, e2, e3⟩ <;> rw [hp] at e1 <;> cases e1
  · refine .inr ⟨by rintro h; rw [h] at e2; simp at e2, ?_⟩
    simp only [Bool.false_eq_true, ↓reduceIte, discoveryURL]
    split
    · next heq => rw [heq] at e2; simp at e2
    · rfl
  · exact .inl ⟨e2, rfl⟩
  · refine .inr ⟨by simp [e2], ?_⟩
    simp only [↓reduceIte, discoveryURL, e2]
    rw [if_pos (by simp [startsWith, List.isPrefixOf])]
    have : portSuffix L.port = Urinorm.portText L.port := by cases L.port <;> rfl
    rw [this, widen]
    simp

/-- **C29** `verifyReturnTo` is True only if discovery on the realm's discovery URL succeeded and was not redirected,
    and among the services found one of the return URL type has a URL without star that covers the return URL. -/
theorem c29_verify (U : Url.Uni) (disc : Discover) (realm returnTo : Str)
    (h : verifyReturnTo U disc realm returnTo = .ok true) :
    ∃ L after found norm, locate U realm = some L ∧ IsRealm L ∧ disc (discoveryURL realm L) = .ok (after, found) ∧
      Urinorm.urinorm U after = .ok norm ∧ Urinorm.urinorm U (discoveryURL realm L) = .ok norm ∧
      ∃ e ∈ found, ∃ a, e.uri = some a ∧ t!"http://specs.openid.net/auth/2.0/return_to" ∈ e.types ∧
        Listed U [a] returnTo := by
  unfold verifyReturnTo at h
  rcases parse_cases U realm with ⟨h0, -⟩ | ⟨e, h0, -⟩ | ⟨L, q, w, h', h1, h2, h3, h4, h5⟩
  · rw [h0] at h; cases h
  · rw [h0] at h; cases h
  · rw [h5] at h
    simp only at h
    rcases build_eq (realm := realm) h4 with ⟨-, e1⟩ | ⟨-, e1⟩
    · rw [e1] at h; cases h
    · rw [e1, ok_bind] at h
      unfold decideReturnTo at h
      split at h
      · next l hl =>
        unfold getAllowedReturnURLs at hl
        obtain ⟨⟨after, found⟩, d1, hl⟩ := bind_eq_ok.1 hl
        simp only at hl
        obtain ⟨x, d2, hl⟩ := bind_eq_ok.1 hl
        obtain ⟨y, d3, hl⟩ := bind_eq_ok.1 hl
        split at hl
        · cases hl
        · next hxy =>
          have hxy : x = y := Classical.not_not.1 hxy
          subst hxy
          cases hl
          obtain ⟨a, ha, h6⟩ := c29_matches U _ _ h
          obtain ⟨e, he, hx⟩ := List.mem_filterMap.1 ha
          unfold extractReturnURL at hx
          split at hx
          · next ht => exact ⟨L, after, found, x, h1, h2, d1, d2, d3, e, he, a, hx, ht, a, by simp, h6⟩
          · cases hx
      · split at h <;> cases h

/-- **C29** redirected discovery always yields False. -/
theorem c29_redirected (U : Url.Uni) (disc : Discover) (realm returnTo : Str) (L : Location) (after : Str)
    (found : List Endpoint) (x y : Str) (hL : locate U realm = some L) (hr : IsRealm L) (hs : L.host ≠ ['*'])
    (hd : disc (discoveryURL realm L) = .ok (after, found)) (hx : Urinorm.urinorm U after = .ok x)
    (hy : Urinorm.urinorm U (discoveryURL realm L) = .ok y) (hne : x ≠ y) :
    verifyReturnTo U disc realm returnTo = .ok false := by
  unfold verifyReturnTo
  rcases parse_cases U realm with ⟨h0, h1⟩ | ⟨e, h0, -, h1, -⟩ | ⟨L', q, w, h', h1, h2, h3, h4, h5⟩
  · rw [h0]
  · rw [hL] at h1; cases h1
  · rw [hL] at h1
    cases h1
    rw [h5]
    rcases build_eq (realm := realm) h4 with ⟨e0, -⟩ | ⟨-, e1⟩
    · exact absurd e0 hs
    · simp only [e1, ok_bind, getAllowedReturnURLs, hd, hx, hy]
      rw [if_pos hne]
      rfl

/-- **C29** failed discovery is not an answer: the failure is raised. -/
theorem c29_failure (U : Url.Uni) (disc : Discover) (realm returnTo : Str) (L : Location)
    (hL : locate U realm = some L) (hr : IsRealm L) (hs : L.host ≠ ['*'])
    (hd : disc (discoveryURL realm L) = .error .discoveryFailure) :
    verifyReturnTo U disc realm returnTo = .error .discoveryFailure := by
  unfold verifyReturnTo
  rcases parse_cases U realm with ⟨h0, h1⟩ | ⟨e, h0, -, h1, -⟩ | ⟨L', q, w, h', h1, h2, h3, h4, h5⟩
  · rcases h1 with ⟨-, h1⟩ | ⟨L', h1, h2⟩ | ⟨-, h1⟩
    · rw [hL] at h1; cases h1
    · rw [hL] at h1; cases h1; exact absurd hr h2
    · rw [hL] at h1; cases h1
  · rw [hL] at h1; cases h1
  · rw [hL] at h1
    cases h1
    rw [h5]
    rcases build_eq (realm := realm) h4 with ⟨e0, -⟩ | ⟨-, e1⟩
    · exact absurd e0 hs
    · simp only [e1, ok_bind, getAllowedReturnURLs, hd, error_bind]
      rfl

/-- **C29** finding: for the realm of one star `verifyReturnTo` raises AssertionError. -/
theorem c29_star_raises (disc : Discover) :
    verifyReturnTo uni0 disc t!"http://*/" t!"http://a.com/" = .error .assertionError := by
  have h : ∃ r, parse uni0 t!"http://*/" = .ok (some r) ∧ buildDiscoveryURL r = .error .assertionError :=
    ⟨⟨t!"http://*/", t!"http", true, [], none, t!"/"⟩, by decide +kernel, by decide +kernel⟩
  obtain ⟨r, h1, h2⟩ := h
  unfold verifyReturnTo
  rw [h1]
  simp only [h2, error_bind]

def disc0 : Discover := fun u =>
  if u = t!"http://www.example.com/" then
    .ok (t!"http://www.example.com", [⟨[t!"http://other"], some t!"http://evil.com/"⟩,
      ⟨[t!"http://x", t!"http://specs.openid.net/auth/2.0/return_to"], some t!"http://rp.example.com/return"⟩,
      ⟨[t!"http://specs.openid.net/auth/2.0/return_to"], some t!"http://*.bad.com/"⟩])
  else if u = t!"http://www.moved.com/" then .ok (t!"http://elsewhere.com/",
      [⟨[t!"http://specs.openid.net/auth/2.0/return_to"], some t!"http://rp.example.com/return"⟩])
  else .error .discoveryFailure

example : verifyReturnTo uni0 disc0 t!"http://*.example.com/" t!"http://rp.example.com/return?x=y" = .ok true ∧
    verifyReturnTo uni0 disc0 t!"http://*.example.com/" t!"http://evil.com/" = .ok false ∧
    verifyReturnTo uni0 disc0 t!"http://*.example.com/" t!"http://www.bad.com/" = .ok false ∧
    verifyReturnTo uni0 disc0 t!"http://*.moved.com/" t!"http://rp.example.com/return" = .ok false ∧
    verifyReturnTo uni0 disc0 t!"http://nowhere.com/" t!"http://rp.example.com/return" = .error .discoveryFailure := by
  decide +kernel

end Props
