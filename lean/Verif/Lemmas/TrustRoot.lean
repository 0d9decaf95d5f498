import Verif.Model.TrustRoot
import Verif.Spec.TrustRoot
import Verif.Lemmas.Urinorm
/-! # Lemmas about realms -/

namespace TrustRoot
open Py Spec

/-- `urlunsplit` of a path that starts with two slashes puts two more in front -/
def widen (p : Str) : Str := if startsWith p t!"//" then t!"//" ++ p else p

/-- path, query and fragment as one text -/
def pathText (path query fragment : Str) : Str :=
  (if path = [] then ['/'] else path) ++ (if query = [] then [] else '?' :: query) ++
    (if fragment = [] then [] else '#' :: fragment)

theorem unsplit_path (path query fragment : Str) (h : path = [] ∨ ∃ q, path = '/' :: q) :
    Url.urlunsplit ⟨[], [], if path = [] then ['/'] else path, query, fragment⟩ =
      widen (pathText path query fragment) := by
  have key : ∀ q : Str, Url.urlunsplit ⟨[], [], '/' :: q, query, fragment⟩ =
      widen ('/' :: q ++ (if query = [] then [] else '?' :: query) ++ (if fragment = [] then [] else '#' :: fragment)) := by
    intro q
    have h1 : startsWith ('/' :: q) t!"//" = startsWith ('/' :: q ++ (if query = [] then [] else '?' :: query) ++
        (if fragment = [] then [] else '#' :: fragment)) t!"//" := by
      cases q with
      | cons c q => simp [startsWith, List.isPrefixOf]
      | nil =>
        by_cases hq : query = [] <;> by_cases hf : fragment = [] <;> simp [hq, hf, startsWith, List.isPrefixOf]
    unfold widen
    rw [← h1]
    unfold Url.urlunsplit
    by_cases hq : query = [] <;> by_cases hf : fragment = [] <;> by_cases hs : startsWith ('/' :: q) t!"//" = true <;>
      simp [hq, hf, hs]
  unfold pathText
  rcases h with rfl | ⟨q, rfl⟩
  · simp only [↓reduceIte]; exact key []
  · simp only [reduceCtorEq, ↓reduceIte]; exact key q

theorem pathText_head (path query fragment : Str) (h : path = [] ∨ ∃ q, path = '/' :: q) :
    ∃ q, pathText path query fragment = '/' :: q := by
  unfold pathText
  rcases h with rfl | ⟨q, rfl⟩ <;> simp

theorem prefix_or (realm path : Str) : (realm = path.take realm.length) ↔ ∃ rest, path = realm ++ rest := by
  constructor
  · intro h
    refine ⟨path.drop realm.length, ?_⟩
    conv => lhs; rw [← List.take_append_drop realm.length path, ← h]
  · rintro ⟨rest, rfl⟩; simp

/-- openid/server/trustroot.py:212-229 decides coverage of the path, and never raises -/
theorem pathOk_some (realm path : Str) (hr : realm ≠ []) :
    ∃ b, pathOk realm path = .ok b ∧ (b = true ↔ PathCovered realm path) := by
  unfold pathOk
  by_cases he : path = realm
  · rw [if_pos he]
    exact ⟨true, rfl, by simp [PathCovered, he]⟩
  · rw [if_neg he]
    by_cases hp : realm = path.take realm.length
    · rw [if_neg (by simpa using hp)]
      obtain ⟨rest, rfl⟩ := (prefix_or _ _).1 hp
      cases rest with
      | nil => simp at he
      | cons d rest =>
        obtain ⟨c, hc⟩ : ∃ c, realm.getLast? = some c := ⟨_, List.getLast?_eq_some_getLast hr⟩
        have hcm : c ∈ realm := List.mem_of_getLast? hc
        have hcov : PathCovered realm (realm ++ d :: rest) ↔
            if '?' ∈ realm then c = '&' ∨ d = '&' else c = '/' ∨ d = '/' ∨ d = '?' := by
          unfold PathCovered
          constructor
          · rintro (h | ⟨r, h1, h2⟩)
            · simp at h
            · have := List.append_cancel_left h1
              subst this
              simpa [hc] using h2
          · intro h
            exact .inr ⟨_, rfl, by simpa [hc] using h⟩
        have hget : (realm ++ d :: rest)[realm.length]? = some d := by simp
        simp only [hc, hget]
        rw [hcov]
        by_cases hq : '?' ∈ realm
        · simp only [hq, ↓reduceIte, List.mem_singleton]
          by_cases h1 : c = '&'
          · simp [h1]
          · simp [h1]
        · have : c ≠ '?' := fun h => hq (h ▸ hcm)
          simp only [hq, ↓reduceIte, List.mem_cons, List.not_mem_nil, or_false, this, false_or]
          by_cases h1 : c = '/'
          · simp [h1]
          · simp only [h1, ↓reduceIte, false_or, Except.ok.injEq, exists_eq_left', decide_eq_true_eq]
            exact Or.comm
    · rw [if_pos hp]
      refine ⟨false, rfl, ?_⟩
      simp only [Bool.false_eq_true, false_iff]
      rintro (h | ⟨r, h, -⟩)
      · exact he h.symm
      · exact hp ((prefix_or _ _).2 ⟨r, h⟩)

theorem widen_ne_nil (q : Str) : widen ('/' :: q) ≠ [] := by
  unfold widen; split <;> simp

theorem widen_inj (x y : Str) (h : widen ('/' :: x) = widen ('/' :: y)) : x = y := by
  unfold widen at h
  split at h <;> split at h
  · simpa using h
  · next h1 h2 => rw [← h] at h2; simp [startsWith, List.isPrefixOf] at h2
  · next h1 h2 => rw [h] at h1; simp [startsWith, List.isPrefixOf] at h1
  · simpa using h

theorem getLast?_widen (q : Str) : (widen ('/' :: q)).getLast? = ('/' :: q).getLast? := by
  unfold widen
  split
  · simp [List.getLast?_append]
  · rfl

theorem mem_widen (q : Str) : '?' ∈ widen ('/' :: q) ↔ '?' ∈ ('/' :: q : Str) := by
  unfold widen; split <;> simp

theorem hash_widen (q : Str) : '#' ∈ widen ('/' :: q) ↔ '#' ∈ ('/' :: q : Str) := by
  unfold widen; split <;> simp

/-- the extra slashes change nothing about coverage -/
theorem covered_widen (x y : Str) :
    PathCovered (widen ('/' :: x)) (widen ('/' :: y)) ↔ PathCovered ('/' :: x) ('/' :: y) := by
  unfold PathCovered
  rw [getLast?_widen]
  simp only [mem_widen]
  constructor
  · rintro (h | ⟨rest, h1, h2⟩)
    · exact .inl (by rw [widen_inj _ _ h])
    · by_cases hx : startsWith ('/' :: x) t!"//" = true
      · have hy : startsWith ('/' :: y) t!"//" = true := by
          rcases Bool.eq_false_or_eq_true (startsWith ('/' :: y) t!"//") with h | h
          · exact h
          · simp only [widen, hx, h, ↓reduceIte, Bool.false_eq_true] at h1
            rw [h1] at h
            simp [startsWith, List.isPrefixOf] at h
        simp only [widen, hx, hy, ↓reduceIte, List.append_assoc] at h1
        exact .inr ⟨rest, List.append_cancel_left h1, h2⟩
      · by_cases hy : startsWith ('/' :: y) t!"//" = true
        · simp only [widen, hx, hy, ↓reduceIte, Bool.false_eq_true] at h1
          have : x = [] := by
            cases x with
            | nil => rfl
            | cons c x =>
              exfalso
              simp only [List.cons_append, List.nil_append, List.cons.injEq, true_and] at h1
              rw [← h1.1] at hx
              simp [startsWith, List.isPrefixOf] at hx
          subst this
          exact .inr ⟨y, rfl, by simp⟩
        · simp only [widen, hx, hy, ↓reduceIte, Bool.false_eq_true] at h1
          exact .inr ⟨rest, h1, h2⟩
  · rintro (h | ⟨rest, h1, h2⟩)
    · exact .inl (by rw [h])
    · by_cases hx : startsWith ('/' :: x) t!"//" = true
      · have hy : startsWith ('/' :: y) t!"//" = true := by
          obtain ⟨z, hz⟩ := (startsWith_iff _ _).1 hx
          rw [h1, hz]
          simp [startsWith, List.isPrefixOf]
        refine .inr ⟨rest, ?_, h2⟩
        unfold widen
        rw [if_pos hx, if_pos hy, h1, List.append_assoc]
      · by_cases hy : startsWith ('/' :: y) t!"//" = true
        · have : x = [] := by
            cases x with
            | nil => rfl
            | cons c x =>
              exfalso
              obtain ⟨z, hz⟩ := (startsWith_iff _ _).1 hy
              rw [hz] at h1
              simp only [List.cons_append, List.nil_append, List.cons.injEq, true_and] at h1
              rw [← h1.1] at hx
              simp [startsWith, List.isPrefixOf] at hx
          subst this
          refine .inr ⟨t!"/" ++ '/' :: y, ?_, by simp⟩
          have h0 : widen ['/'] = ['/'] := by decide
          rw [h0]
          simp [widen, hy]
        · simp only [widen, hx, hy, ↓reduceIte, Bool.false_eq_true]
          exact .inr ⟨rest, h1, h2⟩

theorem widen_nil_pre {y : Str} (hy : startsWith ('/' :: y) t!"//" = true) : ∃ z, y = '/' :: z := by
  obtain ⟨z, hz⟩ := (startsWith_iff _ _).1 hy
  simp at hz
  exact ⟨z, hz⟩

/-! ## `_parseURL` and the location of a URL -/

theorem hostname_nil (U : Url.Uni) : Url.hostname U [] = none := rfl

theorem port_error {n : Str} {e : PyErr} (h : Url.port n = .error e) : e = .valueError := by
  unfold Url.port at h
  simp only at h
  split at h
  · cases h
  · split at h
    · split at h
      · cases h
      · cases h; rfl
    · cases h; rfl

theorem urinorm_error_value {U : Url.Uni} {uri : Str} {e : PyErr} (h : Urinorm.urinorm U uri = .error e) :
    e.isValueError = true := by
  have hchk : ∀ s e, Urinorm.checkDisallowed s = .error e → e.isValueError = true := by
    intro s e h; rw [Urinorm.checkDisallowed] at h; split at h <;> cases h; rfl
  unfold Urinorm.urinorm at h
  rcases bind_eq_error.1 h with h | ⟨s, _, h⟩
  · rw [Url.urlsplit_error _ _ _ h]; rfl
  · simp only at h
    split at h
    · cases h; rfl
    · split at h
      · cases h; rfl
      · rcases bind_eq_error.1 h with h | ⟨nl, _, h⟩
        · unfold Urinorm.normNetloc at h
          rcases bind_eq_error.1 h with h | ⟨_, _, h⟩
          · unfold Urinorm.normHostname at h
            rcases bind_eq_error.1 h with h | ⟨_, _, h⟩
            · unfold Urinorm.idnaOrError at h
              split at h <;> cases h; rfl
            · rcases bind_eq_error.1 h with h | ⟨_, _, h⟩
              · exact hchk _ _ h
              · cases h
          · rcases bind_eq_error.1 h with h | ⟨_, _, h⟩
            · unfold Urinorm.normPort at h
              rcases bind_eq_error.1 h with h | ⟨p, _, h⟩
              · rw [port_error h]; rfl
              · cases p with
                | none => cases h
                | some n => simp only at h; split at h <;> cases h
            · simp only at h
              split at h
              · rcases bind_eq_error.1 h with h | ⟨_, _, h⟩
                · exact hchk _ _ h
                · cases h
              · rcases bind_eq_error.1 h with h | ⟨_, _, h⟩
                · exact hchk _ _ h
                · cases h
              · cases h
        · rcases bind_eq_error.1 h with h | ⟨_, _, h⟩
          · unfold Urinorm.normPath at h
            rcases bind_eq_error.1 h with h | ⟨_, _, h⟩
            · exact hchk _ _ h
            · cases h
          · rcases bind_eq_error.1 h with h | ⟨_, _, h⟩
            · exact hchk _ _ h
            · rcases bind_eq_error.1 h with h | ⟨_, _, h⟩
              · exact hchk _ _ h
              · cases h

/-- `_parseURL` in all cases -/
theorem parseURL_cases (U : Url.Uni) (url : Str) :
    ((∃ e, Urinorm.urinorm U url = .error e) ∧ parseURL U url = .ok none ∧ locate U url = none) ∨
    (∃ r, Urinorm.urinorm U url = .ok r ∧ (
      (parseURL U url = .error .valueError ∧ locate U url = none) ∨
      (∃ p, parseURL U url = .ok (some p) ∧ p.host = none ∧ locate U url = none) ∨
      (∃ L q, locate U url = some L ∧ L.path = '/' :: q ∧
        parseURL U url = .ok (some ⟨L.scheme, some L.host, L.port, widen L.path⟩)))) := by
  unfold parseURL locate
  cases hu : Urinorm.urinorm U url with
  | error e => exact .inl ⟨⟨e, rfl⟩, by simp [urinorm_error_value hu], rfl⟩
  | ok r =>
    refine .inr ⟨r, rfl, ?_⟩
    simp only [splitParts]
    cases hs : Url.urlsplit U r with
    | error e => rw [Url.urlsplit_error _ _ _ hs]; exact .inl ⟨rfl, rfl⟩
    | ok s =>
      simp only [ok_bind]
      cases hp : Url.port s.netloc with
      | error e => rw [port_error hp]; exact .inl ⟨rfl, by cases Url.hostname U s.netloc <;> rfl⟩
      | ok port =>
        cases hh : Url.hostname U s.netloc with
        | none => exact .inr (.inl ⟨_, rfl, rfl, rfl⟩)
        | some h =>
          have hn : s.netloc ≠ [] := by intro h0; rw [h0] at hh; cases hh
          have h1 := (Url.urlsplit_spec U r s hs).2.1 hn
          obtain ⟨q, hq⟩ := pathText_head s.path s.query s.fragment h1
          refine .inr (.inr ⟨_, q, rfl, hq, ?_⟩)
          · have := unsplit_path s.path s.query s.fragment h1
            simp only [this]
            rfl

/-! ## Hosts -/

theorem parseHost_spec (h : Str) :
    (parseHost h = none ∧ ¬ ('*' ∉ h ∨ h = ['*'] ∨ ∃ d, h = '*' :: '.' :: d ∧ '*' ∉ d)) ∨
    (parseHost h = some (false, h) ∧ '*' ∉ h) ∨ (parseHost h = some (true, []) ∧ h = ['*']) ∨
    (∃ d, parseHost h = some (true, '.' :: d) ∧ h = '*' :: '.' :: d ∧ '*' ∉ d) := by
  unfold parseHost
  cases h with
  | nil => simp
  | cons c r =>
    simp only [List.drop_succ_cons, List.drop_zero]
    by_cases hr : '*' ∈ r
    · rw [if_pos hr]
      refine .inl ⟨rfl, ?_⟩
      rintro (h | h | ⟨d, h, h2⟩)
      · simp [hr] at h
      · simp only [List.cons.injEq] at h; rw [h.2] at hr; cases hr
      · simp only [List.cons.injEq] at h
        rw [h.2] at hr
        simp [h2] at hr
    · rw [if_neg hr]
      by_cases hc : c = '*'
      · subst hc
        simp only
        cases r with
        | nil => simp
        | cons d r =>
          simp only [List.mem_cons, not_or] at hr
          by_cases hd : d = '.'
          · subst hd
            refine .inr (.inr (.inr ⟨r, by simp, rfl, hr.2⟩))
          · refine .inl ⟨by simp [hd], ?_⟩
            simp [hd]
      · have : '*' ∉ (c :: r) := by simp [hr, Ne.symm hc]
        refine .inr (.inl ⟨?_, this⟩)
        split
        · next heq => simp only [List.cons.injEq] at heq; exact absurd heq.1 hc
        · rfl

theorem hostOk_iff {h h' : Str} {w : Bool} (hp : parseHost h = some (w, h')) (u p : Str) (pt : Option Nat) (un : Str)
    (host : Str) (hs : '*' ∉ host) : hostOk ⟨un, u, w, h', pt, p⟩ host = true ↔ HostCovered h host := by
  unfold hostOk HostCovered
  rcases parseHost_spec h with ⟨h1, -⟩ | ⟨h1, h2⟩ | ⟨h1, h2⟩ | ⟨d, h1, h2, h3⟩
  · rw [hp] at h1; cases h1
  · rw [hp] at h1
    cases h1
    simp only [Bool.not_false, ↓reduceIte, beq_iff_eq]
    constructor
    · rintro rfl; exact ⟨hs, .inl rfl⟩
    · rintro ⟨-, h | h | ⟨d, h, -⟩⟩
      · exact h.symm
      · subst h; simp at h2
      · subst h; simp at h2
  · rw [hp] at h1
    cases h1
    have : endsWith host [] = true := (endsWith_iff _ _).2 ⟨host, by simp⟩
    simp [this, hs, h2]
  · rw [hp] at h1
    cases h1
    simp only [Bool.not_true, Bool.false_eq_true, ↓reduceIte, Bool.or_eq_true, endsWith_iff, beq_iff_eq,
      List.cons.injEq, true_and]
    subst h2
    constructor
    · rintro (⟨r, h⟩ | h)
      · exact ⟨hs, .inr (.inr ⟨d, rfl, .inr ⟨r, h⟩⟩)⟩
      · exact ⟨hs, .inr (.inr ⟨d, rfl, .inl h⟩)⟩
    · rintro ⟨-, h | h | ⟨d', h, h4⟩⟩
      · rw [← h] at hs; simp at hs
      · cases h
      · simp only [List.cons.injEq, true_and] at h
        subst h
        rcases h4 with h4 | ⟨r, h4⟩
        · exact .inr h4
        · exact .inl ⟨r, h4⟩

/-- `TrustRoot.parse` in all cases -/
theorem parse_cases (U : Url.Uni) (realm : Str) :
    (parse U realm = .ok none ∧ ((∃ e, Urinorm.urinorm U realm = .error e) ∧ locate U realm = none ∨
      (∃ L, locate U realm = some L ∧ ¬ IsRealm L) ∨ (∃ r, Urinorm.urinorm U realm = .ok r) ∧ locate U realm = none)) ∨
    (∃ e, parse U realm = .error e ∧ (∃ r, Urinorm.urinorm U realm = .ok r) ∧ locate U realm = none ∧
      (e = .valueError ∨ e = .attributeError)) ∨
    (∃ L q w h, locate U realm = some L ∧ IsRealm L ∧ L.path = '/' :: q ∧ parseHost L.host = some (w, h) ∧
      parse U realm = .ok (some ⟨realm, L.scheme, w, h, L.port, widen L.path⟩)) := by
  unfold parse
  rcases parseURL_cases U realm with ⟨h1, h2, h3⟩ | ⟨r, hr, ⟨h1, h2⟩ | ⟨p, h1, h2, h3⟩ | ⟨L, q, h1, h2, h3⟩⟩
  · rw [h2]; exact .inl ⟨rfl, .inl ⟨h1, h3⟩⟩
  · rw [h1]; exact .inr (.inl ⟨_, rfl, ⟨r, hr⟩, h2, .inl rfl⟩)
  · rw [h1]
    simp only [parseParts, h2]
    split
    · exact .inl ⟨rfl, .inr (.inr ⟨⟨r, hr⟩, h3⟩)⟩
    · exact .inr (.inl ⟨_, rfl, ⟨r, hr⟩, h3, .inr rfl⟩)
  · rw [h3]
    simp only [parseParts]
    have hw : '#' ∈ widen L.path ↔ '#' ∈ L.path := by rw [h2]; exact hash_widen q
    by_cases hh : '#' ∈ L.path
    · rw [if_pos (hw.2 hh)]
      exact .inl ⟨rfl, .inr (.inl ⟨L, h1, fun hi => hi.1 hh⟩)⟩
    · rw [if_neg (fun h => hh (hw.1 h))]
      rcases parseHost_spec L.host with ⟨e1, e2⟩ | ⟨e1, e2⟩ | ⟨e1, e2⟩ | ⟨d, e1, e2, e3⟩
      · rw [e1]; exact .inl ⟨rfl, .inr (.inl ⟨L, h1, fun hi => e2 hi.2⟩)⟩
      · exact .inr (.inr ⟨L, q, _, _, h1, ⟨hh, .inl e2⟩, h2, e1, by rw [e1]⟩)
      · exact .inr (.inr ⟨L, q, _, _, h1, ⟨hh, .inr (.inl e2)⟩, h2, e1, by rw [e1]⟩)
      · exact .inr (.inr ⟨L, q, _, _, h1, ⟨hh, .inr (.inr ⟨d, e2, e3⟩)⟩, h2, e1, by rw [e1]⟩)

/-- `validateURL` of a parsed realm in all cases -/
theorem validate_cases {U : Url.Uni} {realm q h : Str} {L : Location} {w : Bool} (hq : L.path = '/' :: q)
    (hp : parseHost L.host = some (w, h)) (url : Str) :
    (∃ b, validateURL U ⟨realm, L.scheme, w, h, L.port, widen L.path⟩ url = .ok b ∧
      (b = true ↔ ∃ R, locate U url = some R ∧ Covers L R)) ∨
    (∃ e, validateURL U ⟨realm, L.scheme, w, h, L.port, widen L.path⟩ url = .error e ∧
      (∃ r, Urinorm.urinorm U url = .ok r) ∧ locate U url = none ∧ (e = .valueError ∨ e = .typeError)) := by
  unfold validateURL
  rcases parseURL_cases U url with ⟨h1, h2, h3⟩ | ⟨r, hr, ⟨h1, h2⟩ | ⟨p, h1, h2, h3⟩ | ⟨R, q', h1, h2, h3⟩⟩
  · rw [h2]; exact .inl ⟨false, rfl, by simp [h3]⟩
  · rw [h1]; exact .inr ⟨_, rfl, ⟨r, hr⟩, h2, .inl rfl⟩
  · rw [h1]
    simp only [validateParts, h2]
    split
    · exact .inl ⟨false, rfl, by simp [h3]⟩
    · split
      · exact .inl ⟨false, rfl, by simp [h3]⟩
      · exact .inr ⟨_, rfl, ⟨r, hr⟩, h3, .inr rfl⟩
  · rw [h3]
    left
    simp only [validateParts]
    have hcov : (∃ R', locate U url = some R' ∧ Covers L R') ↔ Covers L R := by
      rw [h1]
      constructor
      · rintro ⟨R', h, h'⟩; cases h; exact h'
      · exact fun h => ⟨R, rfl, h⟩
    rw [hcov]
    by_cases e1 : R.scheme = L.scheme
    · rw [if_neg (by simpa using e1)]
      by_cases e2 : R.port = L.port
      · rw [if_neg (by simpa using e2)]
        by_cases e3 : '*' ∈ R.host
        · rw [if_pos e3]
          exact ⟨false, rfl, by simp [Covers, HostCovered, e3]⟩
        · rw [if_neg e3]
          have e4 := hostOk_iff hp L.scheme (widen L.path) L.port realm R.host e3
          by_cases e5 : HostCovered L.host R.host
          · rw [if_neg (by simpa using e4.2 e5)]
            obtain ⟨b, h4, h5⟩ := pathOk_some (widen L.path) (widen R.path) (by rw [hq]; exact widen_ne_nil q)
            refine ⟨b, h4, ?_⟩
            rw [h5, hq, h2, covered_widen, Covers, hq, h2]
            simp [e1, e2, e5]
          · rw [if_pos (by simpa using fun h => e5 (e4.1 h))]
            exact ⟨false, rfl, by simp [Covers, e5]⟩
      · rw [if_pos e2]
        exact ⟨false, rfl, by simp [Covers, Ne.symm e2]⟩
    · rw [if_pos e1]
      exact ⟨false, rfl, by simp [Covers, Ne.symm e1]⟩

/-! ## Labels -/

theorem splitOn_snoc (c : Char) (a : Str) : splitOn c (a ++ [c]) = splitOn c a ++ [[]] := by
  induction a with
  | nil => simp [splitOn]
  | cons x a ih =>
    rw [List.cons_append, splitOn, splitOn, ih]
    split
    · rfl
    · cases h : splitOn c a with
      | nil => exact absurd h (splitOn_ne_nil c a)
      | cons y ys => rfl

theorem getLast?_splitOn (c : Char) (s : Str) : (splitOn c s).getLast? = some [] ↔ s = [] ∨ endsWith s [c] = true := by
  constructor
  · intro h
    by_cases hm : c ∈ s
    · obtain ⟨a, b, rfl, hb⟩ : ∃ a b, s = a ++ c :: b ∧ c ∉ b := by
        cases hr : rcut c s with
        | none => exact absurd hm ((rcut_eq_none_iff _ _).1 hr)
        | some p => obtain ⟨a, b⟩ := p; exact ⟨a, b, rcut_eq_some _ _ _ _ hr⟩
      right
      have key : ∀ a : Str, (splitOn c (a ++ c :: b)).getLast? = some b := by
        intro a
        induction a with
        | nil => simp [splitOn, splitOn_not_mem c b hb]
        | cons x a ih =>
          rw [List.cons_append, splitOn]
          split
          · rw [List.getLast?_cons, ih]; rfl
          · cases h : splitOn c (a ++ c :: b) with
            | nil => exact absurd h (splitOn_ne_nil c _)
            | cons y ys =>
              rw [h] at ih
              cases ys with
              | nil =>
                exfalso
                have := join_splitOn c (a ++ c :: b)
                rw [h] at this
                have h2 := splitOn_pieces c (a ++ c :: b) y (by rw [h]; simp)
                simp only [join] at this
                rw [this] at h2
                simp at h2
              | cons z zs => simpa [List.getLast?_cons] using ih
      rw [key] at h
      cases h
      exact (endsWith_iff _ _).2 ⟨a, rfl⟩
    · rw [splitOn_not_mem c s hm] at h
      simp at h
      exact .inl h
  · rintro (rfl | h)
    · rfl
    · obtain ⟨a, rfl⟩ := (endsWith_iff _ _).1 h
      rw [splitOn_snoc]; simp

theorem dropRoot_splitOn (d : Str) : dropRoot (splitOn '.' d) = if d = [] then [] else labels d := by
  unfold dropRoot labels
  by_cases hd : d = []
  · subst hd; rfl
  · rw [if_neg hd]
    by_cases he : endsWith d t!"." = true
    · rw [if_pos he, if_pos ⟨splitOn_ne_nil _ _, (getLast?_splitOn _ _).2 (.inr he)⟩]
      obtain ⟨a, rfl⟩ := (endsWith_iff _ _).1 he
      rw [splitOn_snoc]
      simp
    · rw [if_neg he, if_neg]
      rintro ⟨-, h⟩
      rcases (getLast?_splitOn _ _).1 h with h | h
      · exact hd h
      · exact he h

theorem list_last_two (l : List Str) (h : 2 ≤ l.length) : ∃ f s t, l = f ++ [s, t] := by
  rcases List.eq_nil_or_concat l with rfl | ⟨l', t, rfl⟩
  · simp at h
  · rcases List.eq_nil_or_concat l' with rfl | ⟨f, s, rfl⟩
    · simp at h
    · exact ⟨f, s, t, by simp⟩

theorem saneParts_iff (w : Bool) (l : List Str) : saneParts w l = true ↔
    (∀ x ∈ l, x ≠ []) ∧ ∃ front second tld, l = front ++ [second, tld] ∧ tld ∈ topLevelDomains ∧
      (w = true → tld.length = 2 → second.length ≤ 3 → front ≠ []) := by
  have hno : ∀ n : Nat, n < 2 → l.length = n →
      ¬ ((∀ x ∈ l, x ≠ []) ∧ ∃ front second tld, l = front ++ [second, tld] ∧ tld ∈ topLevelDomains ∧
      (w = true → tld.length = 2 → second.length ≤ 3 → front ≠ [])) := by
    rintro n hn hl ⟨-, f, s, t, rfl, -⟩
    simp at hl; omega
  unfold saneParts
  by_cases h0 : l = []
  · rw [if_pos h0]; simp [h0]
  · rw [if_neg h0]
    by_cases h1 : [] ∈ l
    · rw [if_pos h1]
      simp only [Bool.false_eq_true, false_iff]
      rintro ⟨h, -⟩
      exact h _ h1 rfl
    · rw [if_neg h1]
      have hall : ∀ x ∈ l, x ≠ [] := fun x hx hn => h1 (hn ▸ hx)
      simp only
      by_cases h2 : l.length = 1
      · have := hno 1 (by omega) h2
        rw [iff_false_right this]
        split
        · simp
        · simp [h2]
      · have hpos : 0 < l.length := List.length_pos_iff.2 h0
        obtain ⟨f, s, t, rfl⟩ := list_last_two l (by omega)
        have e1 : ((f ++ [s, t]).getLast?.getD []) = t := by simp [List.getLast?_append]
        have e2 : ((f ++ [s, t]).dropLast.getLast?.getD []) = s := by
          have : f ++ [s, t] = (f ++ [s]) ++ [t] := by simp
          rw [this, List.dropLast_concat]; simp
        rw [e1, e2, if_neg h2]
        have e3 : ∀ f' s' t', f ++ [s, t] = f' ++ [s', t'] ↔ f = f' ∧ s = s' ∧ t = t' := by
          intro f' s' t'
          constructor
          · intro h
            have := List.append_inj' h rfl
            simpa using this
          · rintro ⟨rfl, rfl, rfl⟩; rfl
        by_cases h3 : t ∈ topLevelDomains
        · rw [if_neg (by simpa using h3)]
          split
          · next h4 =>
            simp only [List.length_append, List.length_cons, List.length_nil, gt_iff_lt, decide_eq_true_eq]
            constructor
            · intro h
              refine ⟨hall, f, s, t, rfl, h3, fun _ _ _ => ?_⟩
              intro hf; subst hf; simp at h
            · rintro ⟨-, f', s', t', h, -, h6⟩
              obtain ⟨rfl, rfl, rfl⟩ := (e3 _ _ _).1 h
              have := List.length_pos_iff.2 (h6 h4.1 h4.2.1 h4.2.2)
              omega
          · next h4 =>
            simp only [true_iff]
            refine ⟨hall, f, s, t, rfl, h3, fun a b c => absurd ⟨a, b, c⟩ h4⟩
        · rw [if_pos h3]
          simp only [Bool.false_eq_true, false_iff]
          rintro ⟨-, f', s', t', h, h5, -⟩
          obtain ⟨rfl, rfl, rfl⟩ := (e3 _ _ _).1 h
          exact h3 h5

theorem isSane_iff {L : Location} {w : Bool} {h : Str} (hp : parseHost L.host = some (w, h)) (un sch path : Str)
    (port : Option Nat) : ∃ b, isSane ⟨un, sch, w, h, port, path⟩ = .ok b ∧
      (b = true ↔ L.host = t!"localhost" ∨ SaneDomain topLevelDomains (domain L.host).1 (domain L.host).2) := by
  unfold isSane
  rcases parseHost_spec L.host with ⟨h1, -⟩ | ⟨h1, h2⟩ | ⟨h1, h2⟩ | ⟨d, h1, h2, h3⟩
  · rw [hp] at h1; cases h1
  · rw [hp] at h1
    cases h1
    have hd : domain L.host = (L.host, false) := by
      unfold domain
      split
      · next heq => rw [heq] at h2; simp at h2
      · next heq => rw [heq] at h2; simp at h2
      · rfl
    simp only [hd]
    by_cases hl : L.host = t!"localhost"
    · rw [if_pos hl]; exact ⟨true, rfl, by simp [hl]⟩
    · rw [if_neg hl]
      refine ⟨_, rfl, ?_⟩
      rw [saneParts_iff, dropRoot_splitOn]
      unfold SaneDomain
      by_cases hn : L.host = []
      · rw [if_pos hn, hn]
        simp [labels, endsWith, splitOn]
      · rw [if_neg hn]
        simp [hl]
  · rw [hp] at h1
    cases h1
    simp only [h2]
    refine ⟨false, rfl, ?_⟩
    simp [domain, SaneDomain, labels, endsWith, splitOn]
  · rw [hp] at h1
    cases h1
    simp only [h2]
    have hs : splitOn '.' ('.' :: d) = [] :: splitOn '.' d := by rw [splitOn, if_pos rfl]
    rw [if_neg (by simp)]
    refine ⟨_, by simp only [wildParts, hs, ↓reduceIte, List.head?_cons]; rfl, ?_⟩
    rw [saneParts_iff]
    simp only [List.drop_succ_cons, List.drop_zero, domain, dropRoot_splitOn]
    unfold SaneDomain
    by_cases hn : d = []
    · rw [if_pos hn, hn]
      simp [labels, endsWith, splitOn]
    · rw [if_neg hn]
      simp

end TrustRoot
