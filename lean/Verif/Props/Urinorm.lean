import Verif.Lemmas.Urinorm
/-! # C26: urinorm produces a normalised http(s) URL or raises ValueError

`urinorm U uri` models `openid.urinorm.urinorm(uri)`; `U` stands for the Unicode- and
IP-address-dependent parts of the standard library and is arbitrary.  Percent-decoding is
`Percent.unquote`, the pieces of a split URL are those of `urlsplit`. -/

namespace Props
open Py Urinorm

/-- an instance of the Unicode parameter for the examples -/
def uni0 : Url.Uni := ⟨id, fun _ => true, fun _ => true, fun _ => none⟩

/-- Every result is `scheme://[userinfo@]host[:port]/path[?query][#fragment]` with a lower-case http
    or https scheme, an absolute path without dot segments, an explicit port only if it is not the
    scheme's default, and only characters a URI may contain. -/
theorem c26_shape (U : Url.Uni) (uri r : Str) (h : urinorm U uri = .ok r) :
    ∃ scheme userinfo host port path query fragment,
      r = scheme ++ t!"://" ++ userinfo ++ host ++ port ++ '/' :: path ++ query ++ fragment ∧
      (scheme = t!"http" ∨ scheme = t!"https") ∧
      (userinfo = [] ∨ ∃ u, userinfo = u ++ ['@']) ∧
      (port = [] ∨ ∃ n, port = ':' :: natToStr n ∧ 0 < n ∧ n ≤ 65535 ∧
        ¬ (scheme = t!"http" ∧ n = 80) ∧ ¬ (scheme = t!"https" ∧ n = 443)) ∧
      '?' ∉ path ∧ '#' ∉ path ∧ (∀ s ∈ splitOn '/' path, s ≠ t!"." ∧ s ≠ t!"..") ∧
      (query = [] ∨ ∃ q, query = '?' :: q ∧ '#' ∉ q) ∧ (fragment = [] ∨ ∃ f, fragment = '#' :: f) ∧
      ∀ c ∈ r, c ∈ Spec.uriChars := by
  obtain ⟨s, netloc, path, h0, hs, hn, h1, h2, h3, h4, hr⟩ := urinorm_ok U uri r h
  have hsp := (Url.urlsplit_spec U uri s h0).2.1 hn
  obtain ⟨y, hy, -, hall, hnd⟩ := normPath_spec s.path path hsp h2
  obtain ⟨hq1, hq2⟩ := normPath_chars s.path path hsp h2
  obtain ⟨host, port, ui, -, hp, a1, a2, hui, hnl⟩ := normNetloc_ok U _ _ _ h1
  rw [hy, urlunsplit_form _ _ _ _ _ hs] at hr
  have hqs := Percent.urlencode_no_hash (Percent.parseQsl false s.query)
  rw [hnl] at hr
  refine ⟨_, ui, host, portText port, Percent.quote pathSafe y,
    (if Percent.urlencode (Percent.parseQsl false s.query) = [] then []
      else '?' :: Percent.urlencode (Percent.parseQsl false s.query)),
    (if Percent.unquote s.fragment = [] then [] else '#' :: Percent.unquote s.fragment),
    by rw [hr]; simp only [List.append_assoc], hs, ?_, ?_,
    fun hm => hq1 (by rw [hy]; simp [hm]), fun hm => hq2 (by rw [hy]; simp [hm]), ?_, ?_, ?_, ?_⟩
  · rcases hui with ⟨_, rfl⟩ | ⟨u, _, rfl⟩ | ⟨u, p, _, rfl⟩
    · exact .inl rfl
    · exact .inr ⟨_, rfl⟩
    · exact .inr ⟨_, rfl⟩
  · rcases normPort_ok _ _ _ hp with rfl | ⟨n, rfl, e1, -, e2⟩
    · exact .inl rfl
    · simp only [portText]
      split
      · exact .inl rfl
      · exact .inr ⟨n, rfl, by omega, e1, fun e => e2 (.inl e), fun e => e2 (.inr e)⟩
  · intro x hx
    have := hnd x (by rw [hy]; simp [splitOn, hx])
    exact ⟨fun e => this (.inl e), fun e => this (.inr e)⟩
  · split
    · exact .inl rfl
    · exact .inr ⟨_, rfl, hqs⟩
  · split
    · exact .inl rfl
    · exact .inr ⟨_, rfl⟩
  · intro c hc
    rw [← isAllowed_iff]
    rw [hr] at hc
    simp only [List.mem_append, or_assoc] at hc
    rcases hc with hc | hc | hc | hc | hc | hc | hc | hc
    · rcases hs with e | e <;> rw [e] at hc <;> revert c <;> decide
    · revert c; decide
    · exact (List.all_eq_true.1 a2) c hc
    · exact (List.all_eq_true.1 a1) c hc
    · cases port with
      | none => simp [portText] at hc
      | some n =>
        simp only [portText] at hc
        split at hc
        · simp at hc
        · rcases List.mem_cons.1 hc with rfl | hc
          · decide
          · exact (List.all_eq_true.1 (natToStr_allowed n)) c hc
    · rw [hy] at hall; exact (List.all_eq_true.1 hall) c hc
    · split at hc
      · simp at hc
      · rcases List.mem_cons.1 hc with rfl | hc
        · decide
        · exact (List.all_eq_true.1 h3) c hc
    · split at hc
      · simp at hc
      · rcases List.mem_cons.1 hc with rfl | hc
        · decide
        · exact (List.all_eq_true.1 h4) c hc

example : urinorm uni0 t!"HTTP://joe@EXAMPLE.com:80/a/../%7euser/./x?q=1&r=%41#top"
    = .ok t!"http://joe@example.com/~user/x?q=1&r=A#top" := by decide +kernel

/-- Any input that is not normalised is refused with ValueError, nothing else. -/
theorem c26_errors (U : Url.Uni) (uri : Str) (e : PyErr) (h : urinorm U uri = .error e) :
    e = .valueError := by
  have hchk : ∀ s e, checkDisallowed s = .error e → e = .valueError := by
    intro s e h; rw [checkDisallowed] at h; split at h <;> simp_all
  have hport : ∀ n e, Url.port n = .error e → e = .valueError := by
    intro n e h
    rw [Url.port] at h
    split at h
    · simp at h
    · split at h
      · split at h <;> simp_all
      · simp_all
  have hnp : ∀ s n e, normPort s n = .error e → e = .valueError := by
    intro s n e h
    rw [normPort] at h
    rcases bind_eq_error.1 h with h | ⟨p, _, h⟩
    · exact hport _ _ h
    · cases p with
      | none => simp at h
      | some n => simp only at h; split at h <;> simp at h
  have hhost : ∀ n e, normHostname U n = .error e → e = .valueError := by
    intro n e h
    rw [normHostname] at h
    rcases bind_eq_error.1 h with h | ⟨p, _, h⟩
    · rw [idnaOrError] at h; split at h <;> simp_all
    · rcases bind_eq_error.1 h with h | ⟨_, _, h⟩
      · exact hchk _ _ h
      · simp at h
  have hnl : ∀ s n e, normNetloc U s n = .error e → e = .valueError := by
    intro s n e h
    rw [normNetloc] at h
    rcases bind_eq_error.1 h with h | ⟨p, _, h⟩
    · exact hhost _ _ h
    · rcases bind_eq_error.1 h with h | ⟨_, _, h⟩
      · exact hnp _ _ _ h
      · simp only at h
        split at h
        · rcases bind_eq_error.1 h with h | ⟨_, _, h⟩
          · exact hchk _ _ h
          · simp at h
        · rcases bind_eq_error.1 h with h | ⟨_, _, h⟩
          · exact hchk _ _ h
          · simp at h
        · simp at h
  have hpath : ∀ p e, normPath p = .error e → e = .valueError := by
    intro p e h
    rw [normPath] at h
    rcases bind_eq_error.1 h with h | ⟨_, _, h⟩
    · exact hchk _ _ h
    · simp at h
  rw [urinorm] at h
  rcases bind_eq_error.1 h with h | ⟨s, _, h⟩
  · exact Url.urlsplit_error U uri e h
  · simp only at h
    split at h
    · simp at h; exact h.symm
    · split at h
      · simp at h; exact h.symm
      · simp only [pure_eq_ok] at h
        rcases bind_eq_error.1 h with h | ⟨_, _, h⟩
        · exact hnl _ _ _ h
        · rcases bind_eq_error.1 h with h | ⟨_, _, h⟩
          · exact hpath _ _ h
          · rcases bind_eq_error.1 h with h | ⟨_, _, h⟩
            · exact hchk _ _ h
            · rcases bind_eq_error.1 h with h | ⟨_, _, h⟩
              · exact hchk _ _ h
              · simp at h

example : urinorm uni0 t!"ftp://example.com/" = .error .valueError ∧
    urinorm uni0 t!"http://example.com:99999/" = .error .valueError ∧
    urinorm uni0 t!"http://exa mple.com/" = .error .valueError := by decide +kernel

/-- how the result of a URL with a plain host splits again -/
theorem urinorm_split (U : Url.Uni) (uri r : Str) (s : Url.Split)
    (hs : Url.urlsplit U uri = .ok s) (hb : '[' ∉ s.netloc ∧ ']' ∉ s.netloc)
    (hh : (Url.hostinfo s.netloc).1 ≠ [] ∧ isAscii (Url.hostinfo s.netloc).1 = true ∧
      '%' ∉ (Url.hostinfo s.netloc).1)
    (h : urinorm U uri = .ok r) : ∃ netloc path,
      Url.urlsplit U r = .ok ⟨Url.lower U s.scheme, netloc, path,
        Percent.urlencode (Percent.parseQsl false s.query), Percent.unquote s.fragment⟩ ∧
      (Url.lower U s.scheme = t!"http" ∨ Url.lower U s.scheme = t!"https") ∧
      normNetloc U (Url.lower U s.scheme) s.netloc = .ok netloc ∧ normPath s.path = .ok path ∧
      normNetloc U (Url.lower U s.scheme) netloc = .ok netloc ∧ normPath path = .ok path ∧ netloc ≠ [] ∧
      (Percent.urlencode (Percent.parseQsl false s.query)).all isAllowed = true ∧
      (Percent.unquote s.fragment).all isAllowed = true ∧
      r = Url.urlunsplit ⟨Url.lower U s.scheme, netloc, path,
        Percent.urlencode (Percent.parseQsl false s.query), Percent.unquote s.fragment⟩ := by
  obtain ⟨s', netloc, path, h0, hsch, hn, h1, h2, h3, h4, hr⟩ := urinorm_ok U uri r h
  obtain rfl : s = s' := by rw [hs] at h0; exact Except.ok.inj h0
  obtain ⟨d1, d2, -⟩ := Url.urlsplit_spec U uri s hs
  have hsp := d2 hn
  obtain ⟨n1, n2, n3, n4, -⟩ := normNetloc_idem U _ _ _ hb.1 hh.1 hh.2.1 hh.2.2 h1
  have p1 := normPath_idem s.path path hsp h2
  obtain ⟨hq1, hq2⟩ := normPath_chars s.path path hsp h2
  obtain ⟨y, rfl, -, hall, -⟩ := normPath_spec s.path path hsp h2
  have hqs := Percent.urlencode_no_hash (Percent.parseQsl false s.query)
  have hnodelim : ∀ c ∈ netloc, Url.isDelim c = false ∧ c ≠ '[' ∧ c ≠ ']' := by
    intro c hc
    have hdig : Py.isDigit c = true → Url.isDelim c = false ∧ c ≠ '[' ∧ c ≠ ']' := by
      intro hd
      have : c ≠ '/' ∧ c ≠ '?' ∧ c ≠ '#' ∧ c ≠ '[' ∧ c ≠ ']' := by
        refine ⟨?_, ?_, ?_, ?_, ?_⟩ <;> (rintro rfl; revert hd; decide)
      simp [Url.isDelim, this]
    rcases n4 c hc with hm | hm | rfl | rfl | hm
    · exact ⟨d1 c hm, fun e => hb.1 (e ▸ hm), fun e => hb.2 (e ▸ hm)⟩
    · obtain ⟨d, hd, rfl⟩ := List.mem_map.1 hm
      rcases asciiLower_eq d with e | e
      · rw [e]; exact ⟨d1 d hd, fun e => hb.1 (e ▸ hd), fun e => hb.2 (e ▸ hd)⟩
      · have : ∀ x : Char, ¬ (97 ≤ x.toNat ∧ x.toNat ≤ 122) → asciiLowerChar d ≠ x := by
          rintro x hx rfl; exact hx e
        simp only [Url.isDelim, Bool.or_eq_false_iff, beq_eq_false_iff_ne]
        exact ⟨⟨⟨this _ (by decide), this _ (by decide)⟩, this _ (by decide)⟩, this _ (by decide), this _ (by decide)⟩
    · decide
    · decide
    · exact hdig hm
  have hsplit := Url.urlsplit_urlunsplit U (Url.lower U s.scheme) netloc (Percent.quote pathSafe y)
    (Percent.urlencode (Percent.parseQsl false s.query)) (Percent.unquote s.fragment)
    hsch n2 (fun c hc => (hnodelim c hc).1)
    (by
      have h1 : '[' ∉ netloc := fun hm => (hnodelim _ hm).2.1 rfl
      have h2 : ']' ∉ netloc := fun hm => (hnodelim _ hm).2.2 rfl
      simp [Url.bracketsOk, h1, h2])
    (.inl ((isAscii_iff _).2 (fun c hc => (isAllowed_bound c (n3 c hc)).2)))
    ⟨fun hm => hq1 (by simp [hm]), fun hm => hq2 (by simp [hm])⟩ hqs
    (by
      intro c hc
      simp only [List.mem_append, or_assoc] at hc
      rcases hc with hc | hc | hc | hc
      · exact (isAllowed_bound c (n3 c hc)).1
      · exact (isAllowed_bound c ((List.all_eq_true.1 hall) c (by simp [hc]))).1
      · exact (isAllowed_bound c ((List.all_eq_true.1 h3) c hc)).1
      · exact (isAllowed_bound c ((List.all_eq_true.1 h4) c hc)).1)
  exact ⟨netloc, '/' :: Percent.quote pathSafe y, by rw [hr]; exact hsplit, hsch, h1, h2, n1, p1, n2, h3, h4, hr⟩

/-- Normalising twice is the same as normalising once, for URLs whose host is a non-empty ASCII name
    without `%`, whose netloc has no square brackets (IPv6 literals) and whose fragment has no
    doubly-escaped `%`.  Without these conditions it is false, see the theorems below. -/
theorem c26_idempotent (U : Url.Uni) (uri r : Str) (s : Url.Split)
    (hs : Url.urlsplit U uri = .ok s) (hb : '[' ∉ s.netloc ∧ ']' ∉ s.netloc)
    (hh : (Url.hostinfo s.netloc).1 ≠ [] ∧ isAscii (Url.hostinfo s.netloc).1 = true ∧
      '%' ∉ (Url.hostinfo s.netloc).1)
    (hf : '%' ∉ Percent.unquote s.fragment)
    (h : urinorm U uri = .ok r) : urinorm U r = .ok r := by
  obtain ⟨netloc, path, hsplit, hsch, -, -, n1, p1, n2, h3, h4, hr⟩ := urinorm_split U uri r s hs hb hh h
  have hlow : Url.lower U (Url.lower U s.scheme) = Url.lower U s.scheme := by
    rcases hsch with e | e <;> rw [e] <;> rfl
  have hfrag : Percent.unquote (Percent.unquote s.fragment) = Percent.unquote s.fragment := by
    apply Percent.unquote_plain
    intro c hc
    exact ⟨(isAllowed_bound c ((List.all_eq_true.1 h4) c hc)).2, fun e => hf (e ▸ hc)⟩
  have := urinorm_of U r _ netloc path hsplit (by rw [hlow]; exact hsch) n2
    (by simp only; rw [hlow]; exact n1) p1 (by simp only; rw [Percent.urlencode_parse_idem]; exact h3)
    (by simp only; rw [hfrag]; exact h4)
  rw [this]
  simp only [hlow, Percent.urlencode_parse_idem, hfrag]
  rw [← hr]

/-- For a URL with a plain host (the same conditions) normalising keeps everything the URL names: read back,
    the result has the same scheme, user information and query arguments (those with an empty value
    dropped), the host in lower case, the decoded fragment, and the same port unless that is 0 or the scheme's default, in
    which case none. -/
theorem c26_authority (U : Url.Uni) (uri r : Str) (s : Url.Split)
    (hs : Url.urlsplit U uri = .ok s) (hb : '[' ∉ s.netloc ∧ ']' ∉ s.netloc)
    (hh : (Url.hostinfo s.netloc).1 ≠ [] ∧ isAscii (Url.hostinfo s.netloc).1 = true ∧
      '%' ∉ (Url.hostinfo s.netloc).1)
    (h : urinorm U uri = .ok r) :
    ∃ s', Url.urlsplit U r = .ok s' ∧ s'.scheme = Url.lower U s.scheme ∧
      Url.userinfo s'.netloc = Url.userinfo s.netloc ∧
      (Url.hostinfo s'.netloc).1 = (Url.hostinfo s.netloc).1.map asciiLowerChar ∧
      (∃ p, Url.port s.netloc = .ok p ∧ Url.port s'.netloc = .ok (p.filter fun n => decide (n ≠ 0 ∧
        ¬ ((s'.scheme = t!"http" ∧ n = 80) ∨ (s'.scheme = t!"https" ∧ n = 443))))) ∧
      Percent.parseQsl true s'.query = Percent.parseQsl false s.query ∧
      s'.fragment = Percent.unquote s.fragment := by
  obtain ⟨netloc, path, hsplit, hsch, h1, -⟩ := urinorm_split U uri r s hs hb hh h
  obtain ⟨-, -, -, -, k1, k2, k3⟩ := normNetloc_idem U _ _ _ hb.1 hh.1 hh.2.1 hh.2.2 h1
  exact ⟨_, hsplit, rfl, k2, k1, k3, Percent.parseQsl_urlencode _, rfl⟩

example : ∃ s, Url.urlsplit uni0 t!"HTTP://u:p@EXAMPLE.com:8080/a/../b%2fc?x=1&y=&z=%20#f%41"
      = .ok s ∧ '[' ∉ s.netloc ∧ ']' ∉ s.netloc ∧ (Url.hostinfo s.netloc).1 ≠ [] ∧
    isAscii (Url.hostinfo s.netloc).1 = true ∧ '%' ∉ (Url.hostinfo s.netloc).1 ∧
    '%' ∉ Percent.unquote s.fragment ∧
    urinorm uni0 t!"HTTP://u:p@EXAMPLE.com:8080/a/../b%2fc?x=1&y=&z=%20#f%41" =
      .ok t!"http://u:p@example.com:8080/b/c?x=1&z=+#fA" :=
  ⟨⟨t!"http", t!"u:p@EXAMPLE.com:8080", t!"/a/../b%2fc", t!"x=1&y=&z=%20", t!"f%41"⟩,
   by decide +kernel, by decide, by decide, by decide, by decide, by decide, by decide +kernel,
   by decide +kernel⟩

/-- An IPv6 literal loses its brackets: the result is not a URL that can be normalised again. -/
theorem c26_ipv6_broken : urinorm uni0 t!"http://[::1]/" = .ok t!"http://::1/" ∧
    urinorm uni0 t!"http://::1/" = .error .valueError := by decide +kernel

/-- The host is percent-decoded after it was lower-cased: not idempotent. -/
theorem c26_host_not_idempotent : urinorm uni0 t!"http://%41.com/" = .ok t!"http://A.com/" ∧
    urinorm uni0 t!"http://A.com/" = .ok t!"http://a.com/" := by decide +kernel

/-- A percent-encoded slash in the host becomes a path separator: the normalised URL has a different
    host. -/
theorem c26_host_changes :
    urinorm uni0 t!"http://trusted.com%2F.evil.com/" = .ok t!"http://trusted.com/.evil.com/" := by
  decide +kernel

/-- A percent-encoded colon in the host becomes a port, even a default one. -/
theorem c26_port_appears :
    urinorm uni0 t!"http://a.com%3A80/" = .ok t!"http://a.com:80/" := by decide +kernel

/-- The fragment is percent-decoded but not encoded again: not idempotent. -/
theorem c26_fragment_not_idempotent : urinorm uni0 t!"http://a.com/#%2541" = .ok t!"http://a.com/#%41" ∧
    urinorm uni0 t!"http://a.com/#%41" = .ok t!"http://a.com/#A" := by decide +kernel

/-- A netloc with only the default port disappears altogether. -/
theorem c26_empty_host : urinorm uni0 t!"http://:80/" = .ok t!"http:///" ∧
    urinorm uni0 t!"http:///" = .error .valueError := by decide +kernel

end Props
