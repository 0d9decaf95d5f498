import Verif.Props.DiscoverXri
import Verif.Lemmas.Xri
/-! # C72: each XRI has a URL of its own, which says what the name is

Whatever the characters of a name, the URL it is turned into is the name with some characters escaped and no others changed, so
that taking the escapes out gives the name back. Two names are therefore never looked up at the same address. -/

namespace Props
open Py Spec Discover Percent

theorem mem_iriSafe : '%' ∈ Xri.iriSafe := by decide

theorem unquote_path (x : Str) : Percent.unquote ((Xri.toURINormal x).drop 6) = bare x := by
  have h : (Xri.toURINormal x).drop 6 = Percent.quote Xri.iriSafe (Xri.escapeForIRI (bare x)) := by
    rw [toURINormal_eq]; simp
  rw [h, Xri.escapeForIRI]
  exact unquote_escaped _ mem_iriSafe (Xri.escaped_xrefs _ (Nat.le_refl _) (escaped_pct _))

/-- **C72**: for every name, taking the escapes out of its URI normal form gives the name, with the scheme in front -/
theorem c72_round_trip (x : Str) :
    Percent.unquote (Xri.toURINormal x) = t!"xri://" ++ bare x := by
  have h := unquote_path x
  rw [toURINormal_eq] at h ⊢
  have h2 : (t!"xri://" ++ Percent.quote Xri.iriSafe (Xri.escapeForIRI (bare x))).drop 6 =
      Percent.quote Xri.iriSafe (Xri.escapeForIRI (bare x)) := by simp
  rw [h2] at h
  generalize Percent.quote Xri.iriSafe (Xri.escapeForIRI (bare x)) = q at h
  rw [Percent.unquote]
  show (Percent.unquoteFrom .idle ('x' :: 'r' :: 'i' :: ':' :: '/' :: '/' :: q)).map Utf8.orReplacement = _
  rw [Percent.unquoteFrom_ascii _ 'x' _ (by decide) (by decide), Percent.unquoteFrom_ascii _ 'r' _ (by decide) (by decide),
    Percent.unquoteFrom_ascii _ 'i' _ (by decide) (by decide), Percent.unquoteFrom_ascii _ ':' _ (by decide) (by decide),
    Percent.unquoteFrom_ascii _ '/' _ (by decide) (by decide), Percent.unquoteFrom_ascii _ '/' _ (by decide) (by decide)]
  rw [← h]
  rfl

/-- **C72**: two names with the same URI normal form are the same name -/
theorem c72_normal (x y : Str) : Xri.toURINormal x = Xri.toURINormal y ↔ bare x = bare y := by
  constructor
  · intro h
    have hx := c72_round_trip x
    rw [h, c72_round_trip y] at hx
    exact (List.append_cancel_left hx).symm
  · intro h
    rw [toURINormal_eq, toURINormal_eq, h]

/-- **C72**: two names looked up at the same address are the same name -/
theorem c72_distinct (x y type : Str) : queryURL x type = queryURL y type ↔ bare x = bare y := by
  constructor
  · intro h
    simp only [queryURL, appendArgs, List.isEmpty_cons, Bool.false_eq_true, if_false] at h
    have h1 := List.append_inj_left' h rfl
    have h2 : defaultProxy ++ (Xri.toURINormal x).drop 6 = defaultProxy ++ (Xri.toURINormal y).drop 6 := by
      refine List.append_inj_left' h1 ?_
      (repeat' split) <;> rfl
    have h3 := List.append_cancel_left h2
    rw [← unquote_path x, h3, unquote_path]
  · intro h
    rw [queryURL, queryURL, (c72_normal x y).2 h]

theorem isXRI_iff (id : Str) : Xri.isXRI id = true ↔ IsName id := by
  rw [Xri.isXRI.eq_def, Bool.or_eq_true, startsWith_iff, IsName]
  refine or_congr Iff.rfl ?_
  cases id with
  | nil => simp
  | cons c rest =>
    simp only [List.contains_iff_mem]
    constructor
    · intro h; exact ⟨c, rest, h, rfl⟩
    · rintro ⟨d, r, h, he⟩
      simp only [List.cons.injEq] at he
      rw [he.1]; exact h

/-- **C72**: a name is looked up at the resolver, and everything else at its own URL. The first thing asked tells them apart. -/
theorem c72_which (W : World) (id : Str) (g : Get) (rest : List Get) (r : Except PyErr (Str × List Endpoint))
    (h : Gets (discover W id) (g :: rest) r) :
    (IsName id ∧ asked g = (queryURL (bare id) t!"http://specs.openid.net/auth/2.0/server", none)) ∨
    (¬ IsName id ∧ g.accept = some t!"text/html; q=0.3, application/xhtml+xml; q=0.5, application/xrds+xml" ∧
      ∃ url, (url = id ∨ url = t!"http://" ++ id) ∧ normalizeURL W.uni url = .ok g.url) := by
  rw [discover] at h
  by_cases hx : Xri.isXRI id = true
  · rw [if_pos hx] at h
    refine .inl ⟨(isXRI_iff id).1 hx, ?_⟩
    obtain ⟨k, hk, -⟩ := c61_requests W id _ r h
    cases k with
    | zero => simp at hk
    | succ k =>
      simp only [List.map_cons, List.take_succ_cons, List.cons.injEq] at hk
      exact hk.1
  · rw [if_neg hx] at h
    refine .inr ⟨fun hn => hx ((isXRI_iff id).2 hn), ?_⟩
    rcases c56_requests W id _ r h with ⟨h0, -⟩ | ⟨url, uri, o, rest', hu, hn, hg, -⟩
    · simp at h0
    · simp only [List.cons.injEq] at hg
      rw [hg.1]
      exact ⟨rfl, url, hu, hn⟩

/-! ### Examples -/

/-- a name with a space, a percent sign, a letter beyond ASCII and a cross-reference -/
example : Xri.toURINormal t!"=a%2Fb (http://x/?é)" = t!"xri://=a%252Fb%20(http:%2F%2Fx%2F%3F%C3%A9)" ∧
    Percent.unquote t!"xri://=a%252Fb%20(http:%2F%2Fx%2F%3F%C3%A9)" = t!"xri://=a%2Fb (http://x/?é)" := by decide +kernel

example : IsName t!"=me" ∧ IsName t!"xri://@a*b" ∧ ¬ IsName t!"me.example.com" := by
  refine ⟨.inr ⟨'=', t!"me", by decide, rfl⟩, .inl ⟨t!"@a*b", rfl⟩, ?_⟩
  rintro (⟨r, h⟩ | ⟨c, r, hc, h⟩)
  · simp at h
  · simp only [List.cons.injEq] at h; rw [← h.1] at hc; revert hc; decide

example : (answer (resolver0 [(404, []), (404, []), (404, []), (404, [])]) (discover disco1 t!"=me")).1.length = 4 := by decide +kernel

end Props
