import Verif.Lemmas.Path
import Verif.Lemmas.Percent
import Verif.Lemmas.Url
import Verif.Spec.Uri
/-! Helper lemmas for URL splitting and `urinorm`. -/

namespace Utf8
open Py

theorem low_byte_of_encodeChar (c : Char) (b : UInt8) (hb : b ∈ encodeChar c) (h : b.toNat < 128) :
    c.toNat = b.toNat := by
  have := char_bound c
  simp only [encodeChar] at hb
  split at hb
  · simp at hb; subst hb; rw [toNat_ofNat_lt _ (by omega)]
  · split at hb
    · simp only [List.mem_cons, List.not_mem_nil, or_false] at hb
      rcases hb with rfl | rfl <;> rw [toNat_ofNat_lt _ (by omega)] at h <;> omega
    · split at hb
      · simp only [List.mem_cons, List.not_mem_nil, or_false] at hb
        rcases hb with rfl | rfl | rfl <;> rw [toNat_ofNat_lt _ (by omega)] at h <;> omega
      · simp only [List.mem_cons, List.not_mem_nil, or_false] at hb
        rcases hb with rfl | rfl | rfl | rfl <;> rw [toNat_ofNat_lt _ (by omega)] at h <;> omega

/-- ASCII bytes of an encoding come from the same ASCII characters -/
theorem low_byte_of_encode (s : Str) (b : UInt8) (hb : b ∈ encode s) (h : b.toNat < 128) :
    Char.ofNat b.toNat ∈ s := by
  obtain ⟨c, hc, hb⟩ := List.mem_flatMap.1 hb
  have := low_byte_of_encodeChar c b hb h
  rw [← this, Char.ofNat_toNat]; exact hc

end Utf8

namespace Percent
open Py

theorem quoteBytes_append (safe : Str) (a b : Bytes) :
    quoteBytes safe (a ++ b) = quoteBytes safe a ++ quoteBytes safe b := by simp [quoteBytes]

theorem quote_append (safe a b : Str) : quote safe (a ++ b) = quote safe a ++ quote safe b := by
  rw [quote, Utf8.encode_append, quoteBytes_append]; rfl

/-- `%` and the upper-case hexadecimal digits -/
def isPctChar (c : Char) : Bool := c == '%' || t!"0123456789ABCDEF".contains c

theorem pct_chars (b : UInt8) : ∀ c ∈ pct b, isPctChar c = true := by
  have hhex : ∀ n, n < 16 → isPctChar (hexUpper n) = true := by decide
  have := b.toNat_lt
  intro c hc
  simp only [pct, List.mem_cons, List.not_mem_nil, or_false] at hc
  rcases hc with rfl | rfl | rfl
  · decide
  · exact hhex _ (by omega)
  · exact hhex _ (by omega)

/-- where the characters of a quoted text come from -/
theorem mem_quote (safe s : Str) (c : Char) (hc : c ∈ quote safe s) :
    isPctChar c = true ∨ (c ∈ s ∧ c.toNat < 128 ∧
      (alwaysSafe (UInt8.ofNat c.toNat) = true ∨ c ∈ safe)) := by
  obtain ⟨b, hb, hc⟩ := List.mem_flatMap.1 hc
  split at hc
  · rename_i h
    right
    simp only [List.mem_cons, List.not_mem_nil, or_false] at hc
    subst hc
    rw [Bool.or_eq_true, Bool.and_eq_true, decide_eq_true_eq] at h
    have hlt : b.toNat < 128 := by
      rcases h with h | h
      · exact (alwaysSafe_lt b h).1
      · exact h.1
    rw [toNat_ofNat_lt _ (by omega)]
    refine ⟨Utf8.low_byte_of_encode s b hb hlt, hlt, ?_⟩
    rcases h with h | h
    · left; simpa using h
    · right; simpa using h.2
  · exact .inl (pct_chars b c hc)

theorem unquoteFrom_plain (s : Str) (h : ∀ c ∈ s, c.toNat < 128 ∧ c ≠ '%') :
    unquoteFrom .idle s = s.map some := by
  induction s with
  | nil => rfl
  | cons c s ih =>
    have hc := h c (by simp)
    rw [unquoteFrom_ascii _ _ _ hc.1 hc.2]
    have e : Utf8.step .idle (UInt8.ofNat c.toNat) = ([some c], .idle) := by
      rw [Utf8.step, Utf8.toNat_ofNat_lt _ (by omega)]
      simp [Utf8.start, hc.1, Char.ofNat_toNat]
    rw [e, ih (fun d hd => h d (by simp [hd]))]
    rfl

/-- unquoting does nothing to ASCII text without `%` -/
theorem unquote_plain (s : Str) (h : ∀ c ∈ s, c.toNat < 128 ∧ c ≠ '%') : unquote s = s := by
  rw [unquote, unquoteFrom_plain s h]
  simp [Utf8.orReplacement, Function.comp_def]

theorem unquote_slash (q : Str) : unquote ('/' :: q) = '/' :: unquote q := by
  rw [unquote, unquoteFrom_ascii _ _ _ (by decide) (by decide)]
  have e : Utf8.step .idle (UInt8.ofNat '/'.toNat) = ([some '/'], .idle) := by decide
  rw [e]; rfl

theorem quote_cons (safe : Str) (c : Char) (q : Str) :
    quote safe (c :: q) = quote safe [c] ++ quote safe q := by
  rw [← quote_append]; rfl

end Percent

namespace Utf8
theorem step_ne_nil_or_pend (st : St) (b : UInt8) :
    (step st b).1 ≠ [] ∨ ∃ k a l h, (step st b).2 = .pend k a l h := by
  have hst : ∀ n, (start n).1 ≠ [] ∨ ∃ k a l h, (start n).2 = .pend k a l h := by
    intro n
    simp only [start]
    repeat' split
    all_goals simp
  cases st with
  | idle => exact hst _
  | pend k acc lo hi =>
    simp only [step]
    split
    · cases k <;> simp
    · simp
end Utf8

namespace Percent
open Py

theorem unquoteFrom_ne_nil (st : Utf8.St) (s : Str) (hne : st ≠ .idle ∨ s ≠ []) :
    unquoteFrom st s ≠ [] := by
  have key : ∀ (st : Utf8.St) (b : UInt8) (s : Str),
      ((Utf8.step st b).2 ≠ .idle ∨ s ≠ [] → unquoteFrom (Utf8.step st b).2 s ≠ []) →
      (Utf8.step st b).1 ++ unquoteFrom (Utf8.step st b).2 s ≠ [] := by
    intro st b s ih
    rcases Utf8.step_ne_nil_or_pend st b with h | ⟨k, a, l, h, e⟩
    · simp [h]
    · have := ih (.inl (by rw [e]; simp))
      simp [this]
  fun_induction unquoteFrom st s with
  | case1 st => cases st <;> simp_all [Utf8.flush]
  | case2 st a b r byte _ ih => exact key st byte r ih
  | case3 st a b r _ ih => exact key st 37 _ ih
  | case4 st c r _ _ ih => exact key st _ r ih
  | case5 => simp

theorem unquote_ne_nil (s : Str) (h : s ≠ []) : unquote s ≠ [] := by
  rw [unquote]
  simpa using unquoteFrom_ne_nil .idle s (.inr h)

theorem parseQsl_noblank (q : Str) : ∀ p ∈ parseQsl false q, p.2 ≠ [] := by
  intro p hp
  obtain ⟨nv, _, hf⟩ := List.mem_filterMap.1 hp
  rw [parseField] at hf
  split at hf
  · simp at hf
  · split at hf
    · simp at hf
    · split at hf
      · rename_i h
        simp at h hf
        subst hf
        exact unquote_ne_nil _ (by simpa using h)
      · simp at hf

theorem urlencode_chars (l : List (Str × Str)) (c : Char) (hm : c ∈ urlencode l) :
    isQuotedChar c = true ∨ c = '&' ∨ c = '=' := by
  rw [urlencode] at hm
  generalize hL : l.map (fun p => quotePlusBytes (Utf8.encode p.1) ++ '=' ::
    quotePlusBytes (Utf8.encode p.2)) = L at hm
  have hL' : ∀ x ∈ L, c ∈ x → isQuotedChar c = true ∨ c = '=' := by
    subst hL
    intro x hx hc
    obtain ⟨p, _, rfl⟩ := List.mem_map.1 hx
    simp only [List.mem_append, List.mem_cons] at hc
    rcases hc with hc | hc | hc
    · exact .inl (quotePlus_chars _ _ hc)
    · exact .inr hc
    · exact .inl (quotePlus_chars _ _ hc)
  clear hL
  induction L with
  | nil => simp [join] at hm
  | cons x L ih =>
    cases L with
    | nil => rcases hL' x (by simp) (by simpa [join] using hm) with h | h <;> simp [h]
    | cons z L =>
      rw [join_cons_cons] at hm
      simp only [List.mem_append] at hm
      rcases hm with (hm | hm) | hm
      · rcases hL' x (by simp) hm with h | h <;> simp [h]
      · simp at hm; simp [hm]
      · exact ih hm (fun w hw => hL' w (by simp [hw]))

theorem urlencode_no_hash (l : List (Str × Str)) : '#' ∉ urlencode l := by
  intro hm
  have := urlencode_chars l '#' hm
  revert this; decide

theorem urlencode_parse_idem (q : Str) :
    urlencode (parseQsl false (urlencode (parseQsl false q))) = urlencode (parseQsl false q) := by
  rw [parseQsl_urlencode_noblank]
  congr 1
  rw [List.filter_eq_self]
  intro p hp
  simpa using parseQsl_noblank q p hp
end Percent

namespace Urinorm
open Py Spec Percent

/-- the `safe` set used for paths -/
abbrev pathSafe : Str := '/' :: subDelims

theorem quote_noslash (s : Str) (h : '/' ∉ s) : '/' ∉ quote pathSafe s := by
  intro hm
  rcases mem_quote _ _ _ hm with h1 | h1
  · revert h1; decide
  · exact h h1.1

theorem quote_eq_dot (s d : Str) (hd : quote pathSafe d = d) (hu : unquote d = d) :
    quote pathSafe s = d ↔ s = d := by
  constructor
  · intro h
    have := unquote_quote pathSafe s (by decide)
    rw [h, hu] at this; exact this.symm
  · rintro rfl; exact hd

theorem quote_absPath (segs : List Str) :
    quote pathSafe (absPath segs) = absPath (segs.map (quote pathSafe)) := by
  induction segs with
  | nil => rfl
  | cons s r ih =>
    rw [absPath_cons, List.map_cons, absPath_cons, List.cons_append, quote_cons, quote_append, ih]
    rfl

theorem walk_map_quote (here segs : List Str) :
    walk (here.map (quote pathSafe)) (segs.map (quote pathSafe)) =
      (walk here segs).map (quote pathSafe) := by
  have e1 : ∀ s, quote pathSafe s = ['.'] ↔ s = ['.'] :=
    fun s => quote_eq_dot s ['.'] (by decide) (by decide)
  have e2 : ∀ s, quote pathSafe s = ['.', '.'] ↔ s = ['.', '.'] :=
    fun s => quote_eq_dot s ['.', '.'] (by decide) (by decide)
  have e0 : quote pathSafe [] = [] := by decide
  fun_induction walk here segs with
  | case1 here => rfl
  | case2 here => simp [walk, (e1 _).2, e0]
  | case3 here => simp [walk, (e2 _).2, e0, List.map_dropLast]
  | case4 here x h1 h2 => simp [walk, e1, e2, h1, h2]
  | case5 here t r ih =>
    simp only [List.map_cons] at ih ⊢
    rw [walk, if_pos ((e1 _).2 rfl)]; exact ih
  | case6 here t r _ ih =>
    simp only [List.map_cons] at ih ⊢
    rw [walk, if_neg (by rw [e1]; simp), if_pos ((e2 _).2 rfl), ← List.map_dropLast]; exact ih
  | case7 here x t r h1 h2 ih =>
    simp only [List.map_cons] at ih ⊢
    rw [walk, if_neg (by rw [e1]; exact h1), if_neg (by rw [e2]; exact h2)]
    simpa using ih

theorem rds_quote (q : Str) :
    removeDotSegments (quote pathSafe ('/' :: q)) = quote pathSafe (removeDotSegments ('/' :: q)) := by
  obtain ⟨h1, h2⟩ := abs_eq_absPath q
  rw [h1, quote_absPath, rds_abs _ h2, rds_abs, quote_absPath]
  · have := walk_map_quote [] (splitOn '/' q)
    rw [List.map_nil] at this
    rw [this]
  · intro s hs
    obtain ⟨t, ht, rfl⟩ := List.mem_map.1 hs
    exact quote_noslash t (h2 t ht)

theorem rds_abs_ne (q : Str) : ∃ q', removeDotSegments ('/' :: q) = '/' :: q' := by
  rw [(abs_eq_absPath q).1, rds_abs _ (abs_eq_absPath q).2]
  cases h : Spec.walk [] (splitOn '/' q) with
  | nil => exact absurd h (walk_ne_nil _ _ (splitOn_ne_nil _ _))
  | cons s r => exact ⟨_, rfl⟩

theorem quote_slash (q : Str) : quote pathSafe ('/' :: q) = '/' :: quote pathSafe q := by
  rw [quote_cons]; rfl

/-- the normalised path of an absolute or empty path: quoted, absolute, without dot segments -/
theorem normPath_spec (p r : Str) (hp : p = [] ∨ ∃ q, p = '/' :: q) (h : normPath p = .ok r) :
    ∃ y, r = '/' :: quote pathSafe y ∧ removeDotSegments ('/' :: y) = '/' :: y ∧
      r.all isAllowed = true ∧ (∀ s ∈ splitOn '/' r, ¬ IsDot s) := by
  rw [normPath] at h
  rcases hp with rfl | ⟨q, rfl⟩
  · simp only [show removeDotSegments (quote ('/' :: subDelims) (unquote [])) = [] by decide,
      ↓reduceIte, show checkDisallowed ['/'] = .ok () by decide, ok_bind, pure_eq_ok] at h
    simp at h
    subst h
    exact ⟨[], by decide, by decide, by decide, by decide⟩
  · rw [unquote_slash] at h
    obtain ⟨y, hy⟩ := rds_abs_ne (unquote q)
    have e := rds_quote (unquote q)
    rw [hy, quote_slash y] at e
    change (do
      checkDisallowed (if removeDotSegments (quote pathSafe ('/' :: unquote q)) = [] then ['/']
        else removeDotSegments (quote pathSafe ('/' :: unquote q)))
      return (if removeDotSegments (quote pathSafe ('/' :: unquote q)) = [] then ['/']
        else removeDotSegments (quote pathSafe ('/' :: unquote q)))) = Except.ok r at h
    rw [e] at h
    simp only [List.cons_ne_nil, if_false, checkDisallowed] at h
    split at h
    · rename_i hall
      simp only [ok_bind, pure_eq_ok, Except.ok.injEq] at h
      refine ⟨y, h.symm, ?_, by rw [← h]; exact hall, ?_⟩
      · rw [← hy]; exact rds_of_no_dot _ (rds_no_dot _)
      · rw [← h, ← e]; exact rds_no_dot _
    · simp at h

theorem normPath_idem (p r : Str) (hp : p = [] ∨ ∃ q, p = '/' :: q) (h : normPath p = .ok r) :
    normPath r = .ok r := by
  obtain ⟨y, rfl, hy, hall, hnd⟩ := normPath_spec p r hp h
  have e1 : unquote ('/' :: quote pathSafe y) = '/' :: y := by
    rw [← quote_slash, unquote_quote _ _ (by decide)]
  have e2 : removeDotSegments (quote pathSafe ('/' :: y)) = '/' :: quote pathSafe y := by
    rw [rds_quote, hy, quote_slash]
  rw [normPath, e1]
  change (do
      checkDisallowed (if removeDotSegments (quote pathSafe ('/' :: y)) = [] then ['/']
        else removeDotSegments (quote pathSafe ('/' :: y)))
      return (if removeDotSegments (quote pathSafe ('/' :: y)) = [] then ['/']
        else removeDotSegments (quote pathSafe ('/' :: y)))) = _
  rw [e2]
  simp [checkDisallowed, hall]

theorem normPath_chars (p r : Str) (hp : p = [] ∨ ∃ q, p = '/' :: q) (h : normPath p = .ok r) :
    '?' ∉ r ∧ '#' ∉ r := by
  obtain ⟨y, rfl, -⟩ := normPath_spec p r hp h
  constructor
  · intro hm
    rcases List.mem_cons.1 hm with h1 | hm
    · exact absurd h1 (by decide)
    · rcases mem_quote _ _ _ hm with h1 | ⟨-, -, h1 | h1⟩ <;> revert h1 <;> decide
  · intro hm
    rcases List.mem_cons.1 hm with h1 | hm
    · exact absurd h1 (by decide)
    · rcases mem_quote _ _ _ hm with h1 | ⟨-, -, h1 | h1⟩ <;> revert h1 <;> decide

theorem checkDisallowed_ok (s : Str) (u : Unit) : checkDisallowed s = .ok u ↔ s.all isAllowed = true := by
  rw [checkDisallowed]; split <;> simp_all

theorem isAllowed_iff (c : Char) : isAllowed c = true ↔ c ∈ Spec.uriChars := by
  have h1 : ∀ n, n < 128 → (isAllowed (Char.ofNat n) = true ↔ Char.ofNat n ∈ Spec.uriChars) := by
    decide +kernel
  have h2 : c ∈ Spec.uriChars → c.toNat < 128 := by
    have : ∀ d ∈ Spec.uriChars, d.toNat < 128 := by decide +kernel
    exact this c
  have h3 : isAllowed c = true → c.toNat < 128 := by
    intro h
    simp only [isAllowed, Bool.or_eq_true, Url.isAlpha, Url.isDigitChar, Bool.and_eq_true,
      decide_eq_true_eq, List.contains_iff_mem, beq_iff_eq] at h
    rcases h with ((((h | h) | h) | h) | h) | h
    · omega
    · omega
    · have : ∀ d ∈ t!"-._~", d.toNat < 128 := by decide
      exact this c h
    · have : ∀ d ∈ t!":/?#[]@", d.toNat < 128 := by decide
      exact this c h
    · have : ∀ d ∈ subDelims, d.toNat < 128 := by decide
      exact this c h
    · subst h; decide
  by_cases hc : c.toNat < 128
  · have := h1 c.toNat hc
    rwa [Char.ofNat_toNat] at this
  · exact ⟨fun h => absurd (h3 h) hc, fun h => absurd (h2 h) hc⟩

theorem isAllowed_bound (c : Char) (h : isAllowed c = true) : 0x20 < c.toNat ∧ c.toNat < 128 := by
  rw [isAllowed_iff] at h
  have : ∀ d ∈ Spec.uriChars, 0x20 < d.toNat ∧ d.toNat < 128 := by decide +kernel
  exact this c h


theorem urlunsplit_form (scheme netloc p query fragment : Str)
    (hs : scheme = t!"http" ∨ scheme = t!"https") :
    Url.urlunsplit ⟨scheme, netloc, '/' :: p, query, fragment⟩ =
      scheme ++ t!"://" ++ netloc ++ '/' :: p ++ (if query = [] then [] else '?' :: query) ++
        (if fragment = [] then [] else '#' :: fragment) := by
  have h1 : scheme ≠ [] := by rcases hs with rfl | rfl <;> simp
  have h2 : scheme ∈ Url.usesNetloc := by rcases hs with rfl | rfl <;> decide
  simp only [Url.urlunsplit, h1, h2, ne_eq, not_false_eq_true, and_self, true_or, or_true, ↓reduceIte]
  by_cases hq : query = [] <;> by_cases hf : fragment = [] <;> simp [hq, hf]

theorem urinorm_ok (U : Url.Uni) (uri r : Str) (h : urinorm U uri = .ok r) :
    ∃ s netloc path, Url.urlsplit U uri = .ok s ∧
      (Url.lower U s.scheme = t!"http" ∨ Url.lower U s.scheme = t!"https") ∧ s.netloc ≠ [] ∧
      normNetloc U (Url.lower U s.scheme) s.netloc = .ok netloc ∧ normPath s.path = .ok path ∧
      (urlencode (parseQsl false s.query)).all isAllowed = true ∧
      (unquote s.fragment).all isAllowed = true ∧
      r = Url.urlunsplit ⟨Url.lower U s.scheme, netloc, path, urlencode (parseQsl false s.query),
        unquote s.fragment⟩ := by
  rw [urinorm] at h
  obtain ⟨s, hs, h⟩ := bind_eq_ok.1 h
  simp only at h
  split at h
  · simp at h
  · rename_i hsch
    split at h
    · simp at h
    · rename_i hnl
      simp only [pure_eq_ok] at h
      obtain ⟨netloc, h1, h⟩ := bind_eq_ok.1 h
      obtain ⟨path, h2, h⟩ := bind_eq_ok.1 h
      obtain ⟨_, h3, h⟩ := bind_eq_ok.1 h
      obtain ⟨_, h4, h⟩ := bind_eq_ok.1 h
      simp only [Except.ok.injEq] at h
      rw [checkDisallowed_ok] at h3 h4
      exact ⟨s, netloc, path, hs, by grind, hnl, h1, h2, h3, h4, h.symm⟩

theorem urinorm_of (U : Url.Uni) (uri : Str) (s : Url.Split) (netloc path : Str)
    (h0 : Url.urlsplit U uri = .ok s)
    (hsch : Url.lower U s.scheme = t!"http" ∨ Url.lower U s.scheme = t!"https") (hn : s.netloc ≠ [])
    (h1 : normNetloc U (Url.lower U s.scheme) s.netloc = .ok netloc) (h2 : normPath s.path = .ok path)
    (h3 : (urlencode (parseQsl false s.query)).all isAllowed = true)
    (h4 : (unquote s.fragment).all isAllowed = true) :
    urinorm U uri = .ok (Url.urlunsplit ⟨Url.lower U s.scheme, netloc, path,
      urlencode (parseQsl false s.query), unquote s.fragment⟩) := by
  rw [urinorm, h0]
  simp only [ok_bind]
  rw [if_neg (by grind), if_neg hn]
  simp only [pure_eq_ok, ok_bind, h1, h2, (checkDisallowed_ok _ ()).2 h3, (checkDisallowed_ok _ ()).2 h4]

/-- host, port and userinfo of a normalised netloc -/
theorem normNetloc_ok (U : Url.Uni) (scheme nl r : Str) (h : normNetloc U scheme nl = .ok r) :
    ∃ host port ui, normHostname U nl = .ok host ∧ normPort scheme nl = .ok port ∧
      host.all isAllowed = true ∧ ui.all isAllowed = true ∧
      ((Url.userinfo nl = (none, none) ∧ ui = []) ∨
        (∃ u, Url.userinfo nl = (some u, none) ∧ ui = u ++ ['@']) ∨
        (∃ u p, Url.userinfo nl = (some u, some p) ∧ ui = u ++ ':' :: p ++ ['@'])) ∧
      r = ui ++ host ++ portText port := by
  rw [normNetloc] at h
  obtain ⟨host, h1, h⟩ := bind_eq_ok.1 h
  obtain ⟨port, h2, h⟩ := bind_eq_ok.1 h
  have hh : host.all isAllowed = true := by
    rw [normHostname] at h1
    obtain ⟨_, _, h1⟩ := bind_eq_ok.1 h1
    obtain ⟨_, h3, h1⟩ := bind_eq_ok.1 h1
    rw [checkDisallowed_ok] at h3
    simp only [pure_eq_ok, Except.ok.injEq] at h1
    rw [← h1]; exact h3
  simp only at h
  cases hu : Url.userinfo nl with
  | mk a b =>
    rw [hu] at h
    cases a with
    | none =>
      have hb : b = none := by
        rw [Url.userinfo] at hu
        split at hu
        · split at hu <;> simp at hu
        · simp at hu; exact hu.symm
      subst hb
      simp only [pure_eq_ok, Except.ok.injEq] at h
      exact ⟨host, port, [], h1, h2, hh, rfl, .inl ⟨rfl, rfl⟩, by simp [← h]⟩
    | some u =>
      cases b with
      | none =>
        simp only at h
        obtain ⟨_, h3, h⟩ := bind_eq_ok.1 h
        rw [checkDisallowed_ok] at h3
        simp only [pure_eq_ok, Except.ok.injEq] at h
        refine ⟨host, port, u ++ ['@'], h1, h2, hh, ?_, .inr (.inl ⟨u, rfl, rfl⟩), by simp [← h]⟩
        rw [List.all_append, h3]; decide
      | some p =>
        simp only at h
        obtain ⟨_, h3, h⟩ := bind_eq_ok.1 h
        rw [checkDisallowed_ok] at h3
        simp only [pure_eq_ok, Except.ok.injEq] at h
        refine ⟨host, port, u ++ ':' :: p ++ ['@'], h1, h2, hh, ?_, .inr (.inr ⟨u, p, rfl, rfl⟩), by simp [← h]⟩
        rw [List.all_append, h3]; decide

theorem normPort_ok (scheme nl : Str) (port : Option Nat) (h : normPort scheme nl = .ok port) :
    (port = none ∨ ∃ n, port = some n ∧ n ≤ 65535 ∧ Url.port nl = .ok (some n) ∧
      ¬ ((scheme = t!"http" ∧ n = 80) ∨ (scheme = t!"https" ∧ n = 443))) := by
  rw [normPort] at h
  obtain ⟨p, h1, h⟩ := bind_eq_ok.1 h
  cases p with
  | none => simp at h; exact .inl h.symm
  | some n =>
    simp only at h
    split at h
    · simp at h; exact .inl h.symm
    · rename_i hn
      simp only [pure_eq_ok, Except.ok.injEq] at h
      refine .inr ⟨n, h.symm, ?_, h1, hn⟩
      rw [Url.port] at h1
      split at h1
      · simp at h1
      · split at h1
        · split at h1
          · simp at h1; omega
          · simp at h1
        · simp at h1

theorem natToStr_allowed (n : Nat) : (natToStr n).all isAllowed = true := by
  rw [List.all_eq_true]
  intro c hc
  have := (natToStr_spec n).2.1 c hc
  simp only [isAllowed, Url.isDigitChar, Bool.or_eq_true]
  simp only [Py.isDigit] at this
  simp [this]


theorem asciiLower_eq (c : Char) :
    asciiLowerChar c = c ∨ (97 ≤ (asciiLowerChar c).toNat ∧ (asciiLowerChar c).toNat ≤ 122) := by
  rw [asciiLowerChar]
  split
  · rename_i h
    right
    rw [Percent.toNat_ofNat_lt _ (by omega)]; omega
  · exact .inl rfl

theorem asciiLower_lt (c : Char) (h : c.toNat < 128) : (asciiLowerChar c).toNat < 128 := by
  rcases asciiLower_eq c with e | e
  · rw [e]; exact h
  · omega

theorem asciiLower_idem (c : Char) : asciiLowerChar (asciiLowerChar c) = asciiLowerChar c := by
  rcases asciiLower_eq c with e | e
  · rw [e, e]
  · rw [asciiLowerChar, if_neg (by omega)]

/-- lower-casing does not create a non-letter -/
theorem mem_lower (s : Str) (c : Char) (hc : ¬ (97 ≤ c.toNat ∧ c.toNat ≤ 122))
    (h : c ∈ s.map asciiLowerChar) : c ∈ s := by
  obtain ⟨d, hd, rfl⟩ := List.mem_map.1 h
  rcases asciiLower_eq d with e | e
  · rw [e]; exact hd
  · exact absurd e hc

theorem isAscii_iff (s : Str) : isAscii s = true ↔ ∀ c ∈ s, c.toNat < 128 := by
  simp [isAscii]

theorem lower_ascii (U : Url.Uni) (s : Str) (h : isAscii s = true) :
    Url.lower U s = s.map asciiLowerChar := by rw [Url.lower, if_pos h]

theorem isAscii_lower (s : Str) (h : isAscii s = true) : isAscii (s.map asciiLowerChar) = true := by
  rw [isAscii_iff] at *
  intro c hc
  obtain ⟨d, hd, rfl⟩ := List.mem_map.1 hc
  exact asciiLower_lt d (h d hd)

/-- a netloc written as userinfo, host and port is read back -/
theorem netloc_read (ui host : Str) (port : Option Nat) (hh : '[' ∉ host ∧ ':' ∉ host ∧ '@' ∉ host)
    (hui : ui = [] ∨ ∃ u, ui = u ++ ['@']) (hport : ∀ n, port = some n → n ≤ 65535 ∧ n ≠ 0) :
    (Url.hostinfo (ui ++ host ++ portText port)).1 = host ∧
      Url.port (ui ++ host ++ portText port) = .ok port ∧
      Url.userinfo (ui ++ host ++ portText port) =
        (if ui = [] then (none, none) else match cut ':' ui.dropLast with
          | some (a, b) => (some a, some b)
          | none => (some ui.dropLast, none)) := by
  have hpt : '@' ∉ portText port ∧ '[' ∉ portText port := by
    cases port with
    | none => simp [portText]
    | some n =>
      simp only [portText, (hport n rfl).2, ↓reduceIte, List.mem_cons, not_or]
      refine ⟨⟨by decide, ?_⟩, ⟨by decide, ?_⟩⟩ <;> intro hm <;>
        exact absurd ((natToStr_spec n).2.1 _ hm) (by decide)
  have hhp : '@' ∉ host ++ portText port := by simp [hh.2.2, hpt.1]
  have hbr : '[' ∉ host ++ portText port := by simp [hh.1, hpt.2]
  have hit : Url.hostinfoText (ui ++ host ++ portText port) = host ++ portText port := by
    rw [Url.hostinfoText]
    rcases hui with rfl | ⟨u, rfl⟩
    · rw [List.nil_append, (rcut_eq_none_iff _ _).2 hhp]
    · have : u ++ ['@'] ++ host ++ portText port = u ++ '@' :: (host ++ portText port) := by simp
      rw [this, rcut_append _ _ _ hhp]
  have hhi : Url.hostinfo (ui ++ host ++ portText port) =
      (host, (portText port).drop 1) := by
    rw [Url.hostinfo, hit]
    simp only [(cut_eq_none_iff _ _).2 hbr]
    cases port with
    | none => simp [portText, Url.cutOr_not_mem _ _ hh.2.1]
    | some n =>
      simp only [portText, (hport n rfl).2, ↓reduceIte]
      rw [Url.cutOr_append _ _ _ hh.2.1]
      rfl
  refine ⟨by rw [hhi], ?_, ?_⟩
  · rw [Url.port, hhi]
    cases port with
    | none => simp [portText]
    | some n =>
      obtain ⟨h1, h2, h3⟩ := natToStr_spec n
      simp only [portText, (hport n rfl).2, ↓reduceIte, List.drop_one, List.tail_cons]
      have hd : (natToStr n).all Url.isDigitChar = true := by
        rw [List.all_eq_true]; exact h2
      have hv : Url.decVal (natToStr n) = n := h3
      simp [h1, hd, hv, (hport n rfl).1]
  · rw [Url.userinfo]
    rcases hui with rfl | ⟨u, rfl⟩
    · rw [List.nil_append, (rcut_eq_none_iff _ _).2 hhp]; simp
    · have : u ++ ['@'] ++ host ++ portText port = u ++ '@' :: (host ++ portText port) := by simp
      rw [this, rcut_append _ _ _ hhp, if_neg (by simp), List.dropLast_concat]
      simp only
      cases cut ':' u <;> rfl

/-- normalised host of a plain ASCII host name -/
theorem normHostname_plain (U : Url.Uni) (nl : Str)
    (hne : (Url.hostinfo nl).1 ≠ []) (ha : isAscii (Url.hostinfo nl).1 = true)
    (hp : '%' ∉ (Url.hostinfo nl).1) :
    normHostname U nl = (do
      let h ← idnaOrError U ((Url.hostinfo nl).1.map asciiLowerChar)
      checkDisallowed h
      return h) := by
  have e1 : Url.hostname U nl = some ((Url.hostinfo nl).1.map asciiLowerChar) := by
    simp only [Url.hostname, hne, ↓reduceIte, (cut_eq_none_iff _ _).2 hp, lower_ascii U _ ha]
  have e2 : unquote ((Url.hostinfo nl).1.map asciiLowerChar) = (Url.hostinfo nl).1.map asciiLowerChar := by
    apply unquote_plain
    intro c hc
    refine ⟨(isAscii_iff _).1 (isAscii_lower _ ha) c hc, ?_⟩
    rintro rfl
    exact hp (mem_lower _ _ (by decide) hc)
  have e3 : Url.lower U ((Url.hostinfo nl).1.map asciiLowerChar) = (Url.hostinfo nl).1.map asciiLowerChar := by
    rw [lower_ascii U _ (isAscii_lower _ ha), List.map_map]
    congr 1
    funext c; exact asciiLower_idem c
  simp only [normHostname, e1, e3, e2]

theorem hostinfo_fst_subset (nl : Str) : ∀ c ∈ (Url.hostinfo nl).1, c ∈ nl := by
  have ht : ∀ c ∈ Url.hostinfoText nl, c ∈ nl := by
    intro c hc
    rw [Url.hostinfoText] at hc
    split at hc
    · rename_i h; have := (rcut_eq_some _ _ _ _ h).1; rw [this]; simp [hc]
    · exact hc
  intro c hc
  apply ht
  rw [Url.hostinfo] at hc
  simp only at hc
  split at hc
  · rename_i a br h
    have := ((cut_eq_some_iff _ _ _ _).1 h).1
    rw [this]
    have := Url.cutOr_fst_subset ']' br c hc
    simp [this]
  · exact Url.cutOr_fst_subset _ _ c hc

theorem hostinfo_plain (nl : Str) (hb : '[' ∉ nl) :
    ':' ∉ (Url.hostinfo nl).1 ∧ '@' ∉ (Url.hostinfo nl).1 := by
  have ht : ∀ c ∈ Url.hostinfoText nl, c ∈ nl := by
    intro c hc
    rw [Url.hostinfoText] at hc
    split at hc
    · rename_i h; have := (rcut_eq_some _ _ _ _ h).1; rw [this]; simp [hc]
    · exact hc
  have hat : '@' ∉ Url.hostinfoText nl := by
    rw [Url.hostinfoText]
    split
    · rename_i h; exact (rcut_eq_some _ _ _ _ h).2
    · rename_i h; exact (rcut_eq_none_iff _ _).1 h
  have : '[' ∉ Url.hostinfoText nl := fun h => hb (ht _ h)
  rw [Url.hostinfo]
  simp only [(cut_eq_none_iff _ _).2 this]
  exact ⟨(Url.cutOr_spec ':' _).1, fun h => hat (Url.cutOr_fst_subset _ _ _ h)⟩

theorem idnaOrError_ascii (U : Url.Uni) (s t : Str) (ha : isAscii s = true)
    (h : idnaOrError U s = .ok t) : t = s := by
  rw [idnaOrError] at h
  split at h
  · rename_i h' he
    simp only [Except.ok.injEq] at h
    subst h
    rw [Url.idnaEncode, if_pos ha] at he
    split at he
    · rename_i h0; simp at he; rw [h0, he]
    · simp only at he
      generalize (List.all _ _ && _) = b at he
      cases b <;> simp at he
      exact he.symm
  · simp at h

theorem userinfo_chars (nl : Str) :
    (∀ u, Url.userinfo nl = (some u, none) → ':' ∉ u ∧ ∀ c ∈ u, c ∈ nl) ∧
    (∀ u p, Url.userinfo nl = (some u, some p) → ':' ∉ u ∧ (∀ c ∈ u, c ∈ nl) ∧ ∀ c ∈ p, c ∈ nl) := by
  rw [Url.userinfo]
  cases hr : rcut '@' nl with
  | none => simp
  | some q =>
    obtain ⟨u0, h0⟩ := q
    have hsub : ∀ c ∈ u0, c ∈ nl := by
      intro c hc; rw [(rcut_eq_some _ _ _ _ hr).1]; simp [hc]
    simp only
    cases hc : cut ':' u0 with
    | none =>
      refine ⟨?_, by simp⟩
      intro u hu
      simp at hu
      subst hu
      exact ⟨(cut_eq_none_iff _ _).1 hc, hsub⟩
    | some q =>
      obtain ⟨a, b⟩ := q
      obtain ⟨h1, h2⟩ := (cut_eq_some_iff _ _ _ _).1 hc
      refine ⟨by simp, ?_⟩
      intro u p hu
      simp at hu
      obtain ⟨rfl, rfl⟩ := hu
      exact ⟨h2, fun c hc => hsub c (by rw [h1]; simp [hc]), fun c hc => hsub c (by rw [h1]; simp [hc])⟩

/-- normalising the netloc twice changes nothing, for a plain ASCII host -/
theorem normNetloc_idem (U : Url.Uni) (scheme nl r : Str) (hb : '[' ∉ nl)
    (hne : (Url.hostinfo nl).1 ≠ []) (ha : isAscii (Url.hostinfo nl).1 = true)
    (hp : '%' ∉ (Url.hostinfo nl).1) (h : normNetloc U scheme nl = .ok r) :
    normNetloc U scheme r = .ok r ∧ r ≠ [] ∧ (∀ c ∈ r, isAllowed c = true) ∧
      (∀ c ∈ r, c ∈ nl ∨ c ∈ nl.map asciiLowerChar ∨ c = ':' ∨ c = '@' ∨ Py.isDigit c = true) ∧
      (Url.hostinfo r).1 = (Url.hostinfo nl).1.map asciiLowerChar ∧ Url.userinfo r = Url.userinfo nl ∧
      ∃ p, Url.port nl = .ok p ∧ Url.port r = .ok (p.filter fun n => decide (n ≠ 0 ∧
        ¬ ((scheme = t!"http" ∧ n = 80) ∨ (scheme = t!"https" ∧ n = 443)))) := by
  obtain ⟨host, port, ui, h1, h2, h3, h4, h5, h6⟩ := normNetloc_ok U scheme nl r h
  have hhost : host = (Url.hostinfo nl).1.map asciiLowerChar ∧
      idnaOrError U ((Url.hostinfo nl).1.map asciiLowerChar) = .ok ((Url.hostinfo nl).1.map asciiLowerChar) := by
    rw [normHostname_plain U nl hne ha hp] at h1
    obtain ⟨a, e1, h1⟩ := bind_eq_ok.1 h1
    obtain ⟨_, e2, h1⟩ := bind_eq_ok.1 h1
    simp only [pure_eq_ok, Except.ok.injEq] at h1
    have := idnaOrError_ascii U _ _ (isAscii_lower _ ha) e1
    rw [← h1, this]; rw [this] at e1; exact ⟨rfl, e1⟩
  obtain ⟨hhost, hidna⟩ := hhost
  have hpl := hostinfo_plain nl hb
  have hh : '[' ∉ host ∧ ':' ∉ host ∧ '@' ∉ host := by
    rw [hhost]
    exact ⟨fun hm => hb (hostinfo_fst_subset nl _ (mem_lower _ _ (by decide) hm)),
      fun hm => hpl.1 (mem_lower _ _ (by decide) hm), fun hm => hpl.2 (mem_lower _ _ (by decide) hm)⟩
  have hhne : host ≠ [] := by rw [hhost]; simpa using hne
  have hhpct : '%' ∉ host := by rw [hhost]; exact fun hm => hp (mem_lower _ _ (by decide) hm)
  have hhasc : isAscii host = true := by rw [hhost]; exact isAscii_lower _ ha
  have hlow : host.map asciiLowerChar = host := by
    rw [hhost, List.map_map]; congr 1; funext c; exact asciiLower_idem c
  -- the port actually written
  generalize hport' : (match port with | some 0 => none | p => p) = port'
  have hpt : portText port = portText port' := by
    subst hport'
    cases port with
    | none => rfl
    | some n => cases n <;> rfl
  have hport : ∀ n, port' = some n → n ≤ 65535 ∧ n ≠ 0 ∧
      ¬ ((scheme = t!"http" ∧ n = 80) ∨ (scheme = t!"https" ∧ n = 443)) := by
    intro n hn
    subst hport'
    rcases normPort_ok scheme nl port h2 with rfl | ⟨m, rfl, hm, _, hm2⟩
    · simp at hn
    · cases m with
      | zero => simp at hn
      | succ m => simp at hn; subst hn; exact ⟨hm, by simp, hm2⟩
  have hui : ui = [] ∨ ∃ u, ui = u ++ ['@'] := by
    rcases h5 with ⟨_, rfl⟩ | ⟨u, _, rfl⟩ | ⟨u, p, _, rfl⟩
    · exact .inl rfl
    · exact .inr ⟨u, rfl⟩
    · exact .inr ⟨_, rfl⟩
  obtain ⟨r1, r2, r3⟩ := netloc_read ui host port' hh hui (fun n hn => ⟨(hport n hn).1, (hport n hn).2.1⟩)
  rw [hpt] at h6
  rw [← h6] at r1 r2 r3
  have huic : ∀ c ∈ ui, c ∈ nl ∨ c = ':' ∨ c = '@' := by
    have := userinfo_chars nl
    intro c hc
    rcases h5 with ⟨_, rfl⟩ | ⟨u, e, rfl⟩ | ⟨u, p, e, rfl⟩
    · simp at hc
    · have := (this.1 u e).2 c; simp at hc; rcases hc with hc | hc <;> simp_all
    · have := (this.2 u p e).2; simp at hc; rcases hc with hc | hc | hc | hc <;> simp_all
  have hptc : ∀ c ∈ portText port', c = ':' ∨ Py.isDigit c = true := by
    intro c hc
    cases port' with
    | none => simp [portText] at hc
    | some n =>
      simp only [portText] at hc
      split at hc
      · simp at hc
      · rcases List.mem_cons.1 hc with rfl | hc
        · exact .inl rfl
        · exact .inr ((natToStr_spec n).2.1 c hc)
  refine ⟨?_, ?_, ?_, ?_, by rw [r1, hhost], ?_, ?_⟩
  · rw [normNetloc]
    have e1 : normHostname U r = .ok host := by
      rw [normHostname_plain U r (by rw [r1]; exact hhne) (by rw [r1]; exact hhasc)
        (by rw [r1]; exact hhpct), r1, hlow]
      rw [← hhost] at hidna
      rw [hidna]
      simp only [ok_bind, (checkDisallowed_ok _ ()).2 h3, pure_eq_ok]
    have e2 : normPort scheme r = .ok port' := by
      rw [normPort, r2]
      cases port' with
      | none => rfl
      | some n => simp only [ok_bind]; rw [if_neg (hport n rfl).2.2]; rfl
    rw [e1, e2]
    simp only [ok_bind, r3]
    have hcut := userinfo_chars nl
    rcases h5 with ⟨_, rfl⟩ | ⟨u, e, rfl⟩ | ⟨u, p, e, rfl⟩
    · simp [h6]
    · have := (hcut.1 u e).1
      rw [if_neg (by simp), List.dropLast_concat, (cut_eq_none_iff _ _).2 this]
      simp only
      have hc : checkDisallowed u = .ok () := by
        rw [checkDisallowed_ok]; rw [List.all_append, Bool.and_eq_true] at h4; exact h4.1
      rw [hc]; simp [h6]
    · have := (hcut.2 u p e).1
      rw [if_neg (by simp), List.dropLast_concat, cut_append _ _ _ this]
      simp only
      have hc : checkDisallowed (u ++ ':' :: p) = .ok () := by
        rw [checkDisallowed_ok]; rw [List.all_append, Bool.and_eq_true] at h4; exact h4.1
      rw [hc]; simp [h6]
  · rw [h6]; simp [hhne]
  · intro c hc
    rw [h6] at hc
    simp only [List.mem_append] at hc
    rcases hc with (hc | hc) | hc
    · exact (List.all_eq_true.1 h4) c hc
    · exact (List.all_eq_true.1 h3) c hc
    · rcases hptc c hc with rfl | hd
      · decide
      · simp only [Py.isDigit] at hd
        simp [isAllowed, Url.isDigitChar, hd]
  · intro c hc
    rw [h6] at hc
    simp only [List.mem_append] at hc
    rcases hc with (hc | hc) | hc
    · rcases huic c hc with h | h | h <;> simp [h]
    · right; left
      rw [hhost] at hc
      obtain ⟨d, hd, rfl⟩ := List.mem_map.1 hc
      exact List.mem_map.2 ⟨d, hostinfo_fst_subset nl d hd, rfl⟩
    · rcases hptc c hc with h | h <;> simp [h]
  · rw [r3]
    have hcut := userinfo_chars nl
    rcases h5 with ⟨e, rfl⟩ | ⟨u, e, rfl⟩ | ⟨u, p, e, rfl⟩
    · simp [e]
    · have := (hcut.1 u e).1
      rw [if_neg (by simp), List.dropLast_concat, (cut_eq_none_iff _ _).2 this, e]
    · have := (hcut.2 u p e).1
      rw [if_neg (by simp), List.dropLast_concat, cut_append _ _ _ this, e]
  · rw [normPort] at h2
    obtain ⟨p, hp1, h2⟩ := bind_eq_ok.1 h2
    refine ⟨p, hp1, ?_⟩
    rw [r2]
    subst hport'
    cases p with
    | none => simp only [pure_eq_ok, Except.ok.injEq] at h2; subst h2; rfl
    | some n =>
      simp only [pure_eq_ok] at h2
      split at h2
      · next hd => simp only [Except.ok.injEq] at h2; subst h2; simp [Option.filter, hd]
      · next hd =>
        simp only [Except.ok.injEq] at h2; subst h2
        cases n with
        | zero => simp [Option.filter]
        | succ n => simp only [Option.filter]; rw [if_pos (decide_eq_true ⟨by simp, hd⟩)]

end Urinorm
