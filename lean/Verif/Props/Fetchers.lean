import Verif.Lemmas.Fetchers
/-! # C50: fetching with redirects -/

namespace Props
open Py Fetchers Spec

/-- C50: However many rounds the curl fetcher makes and whatever is answered, the requests follow the redirects from the
    given URL, each of them is with the given headers and for a URL that starts with http:// or https://, in its normal form, and only the first one
    sends the body; and when it ends, it ends as the last answer, the clock or the next URL say. -/
theorem c50_curl (E : Env) (U : Url.Uni) (agent : Str) (n : Nat) (url : Str) (body : Option Bytes) (headers : Dict Str Str) :
    ∃ urls reqs out, curlFetch E U agent n url body headers = (reqs, out) ∧
      Followed E U url body.isSome ((sentHeaders agent headers).map fun p => p.1 ++ t!": " ++ p.2) urls reqs ∧ reqs.length ≤ n ∧
      (out = none → reqs.length = n ∧ ∀ i < n, 0 < timeLeft E i) ∧
      ∀ r, out = some r → Ends E U urls reqs r := by
  obtain ⟨urls, reqs, out, h1, h2, h3⟩ := loop_spec E U (headerList agent headers) url body.isSome n url 20 body.isSome [] [url] 1
    rfl rfl rfl rfl (by simp) ⟨rfl, by simp, by simp⟩
  refine ⟨urls, reqs, out, h1, by rw [← withAgent_eq]; exact h2, ?_⟩
  cases out with
  | none =>
    obtain ⟨a, _, c⟩ := h3
    refine ⟨by simpa using Nat.le_of_eq a, fun _ => ⟨by simpa using a, fun i hi => c i (Nat.zero_le _) (by simpa using hi)⟩, ?_⟩
    intro r hr; exact absurd hr (by simp)
  | some r =>
    obtain ⟨a, b⟩ := h3
    refine ⟨by simpa using b, fun h => absurd h (by simp), ?_⟩
    intro r' hr; cases hr; exact a

/-- C50: Every URL that the curl fetcher requests starts with http:// or https://, whatever it is redirected to. -/
theorem c50_http_only (E : Env) (U : Url.Uni) (agent : Str) (n : Nat) (url : Str) (body : Option Bytes) (headers : Dict Str Str)
    (r : Request) (h : r ∈ (curlFetch E U agent n url body headers).1) : IsHttp r.url := by
  obtain ⟨urls, reqs, out, h1, h2, -⟩ := c50_curl E U agent n url body headers
  rw [h1] at h
  obtain ⟨i, hi, rfl⟩ := List.mem_iff_getElem.1 h
  obtain ⟨u, -, -, hu, -⟩ := h2.asked i _ (List.getElem?_eq_getElem hi)
  exact urinorm_http U u _ hu

/-- C50: The curl fetcher returns the answer to its last request, which is no redirect, for the URL before it was put in its
    normal form; the body is no longer than a mebibyte and the last piece. -/
theorem c50_final (E : Env) (U : Url.Uni) (agent : Str) (n : Nat) (url : Str) (body : Option Bytes) (headers : Dict Str Str)
    (r : Response) (h : (curlFetch E U agent n url body headers).2 = some (.ok r)) :
    ∃ reqs last header chunks, (curlFetch E U agent n url body headers).1 = reqs ++ [last] ∧
      IsHttp r.finalUrl ∧ Urinorm.urinorm U r.finalUrl = .ok last.url ∧
      E.reply (reqs ++ [last]) = .got header chunks r.status ∧ ¬ IsRedirect r.status ∧
      parseHeaders header = .ok r.headers ∧ r.body = chunks.flatten ∧ Fits chunks := by
  obtain ⟨urls, reqs, out, h1, h2, -, -, h3⟩ := c50_curl E U agent n url body headers
  rw [h1] at h ⊢
  simp only at h ⊢
  cases h3 _ h with
  | done hl _ hu ha hc =>
    obtain ⟨header, chunks, a1, a2, a3, a4⟩ := ha
    have hne : reqs ≠ [] := by
      rintro rfl
      rw [List.length_nil, List.length_eq_zero_iff] at hl; subst hl; simp at hu
    obtain ⟨pre, last, rfl⟩ : ∃ pre last, reqs = pre ++ [last] := ⟨_, _, (List.dropLast_concat_getLast hne).symm⟩
    obtain ⟨u, hu', hw, hn, -⟩ := h2.asked pre.length last (by simp)
    rw [List.getLast?_eq_getElem?, hl] at hu
    simp only [List.length_append, List.length_cons, List.length_nil, Nat.zero_add, Nat.add_sub_cancel] at hu
    rw [hu] at hu'
    obtain rfl := Option.some.inj hu'
    exact ⟨pre, last, header, chunks, rfl, hw, hn, a1, hc, a4, a3, a2⟩

/-- C50: The time bounds the curl fetcher: it ends before a round for which the clock leaves no time, and while the clock does
    not go back it allows no request more than twenty seconds. -/
theorem c50_time (E : Env) (U : Url.Uni) (agent : Str) (n : Nat) (url : Str) (body : Option Bytes) (headers : Dict Str Str) :
    (∀ i < n, timeLeft E i ≤ 0 → (curlFetch E U agent n url body headers).2 ≠ none) ∧
    ((∀ i, E.time 0 ≤ E.time i) → ∀ r ∈ (curlFetch E U agent n url body headers).1, 0 < r.timeout ∧ r.timeout ≤ 20) := by
  obtain ⟨urls, reqs, out, h1, h2, -, h3, -⟩ := c50_curl E U agent n url body headers
  rw [h1]
  refine ⟨?_, ?_⟩
  · intro i hi ht hn
    have := (h3 hn).2 i hi; omega
  · intro hm r hr
    obtain ⟨i, hi, rfl⟩ := List.mem_iff_getElem.1 hr
    obtain ⟨u, -, -, -, -, -, ht, hp⟩ := h2.asked i _ (List.getElem?_eq_getElem hi)
    refine ⟨hp, ?_⟩
    rw [ht, timeLeft]
    have := hm i
    split <;> omega

/-- what servers answer in the examples: the headers of a redirect, and of a page -/
def redirect0 (l : Str) : Reply := .got (headerData (Utf8.encode t!"HTTP/1.1 302 Found") [(Utf8.encode t!"Location", Utf8.encode l)]) [] 302
def page0 : Reply := .got (headerData (Utf8.encode t!"HTTP/1.1 200 OK") [(Utf8.encode t!"Content-Type", Utf8.encode t!"text/html")])
  [[104], [105]] 200
def fetchEnv0 : Env := ⟨fun n => n, fun reqs => if reqs.length = 1 then redirect0 t!"https://B.example/x" else page0⟩

/-- C50, instance: a redirect is followed with a GET request; the final URL is not in its normal form. -/
theorem c50_example : curlFetch fetchEnv0 uni0 t!"a" 5 t!"http://a.example" (some []) [] =
    ([⟨t!"http://a.example/", true, [t!"User-Agent: a"], 20⟩, ⟨t!"https://b.example/x", false, [t!"User-Agent: a"], 19⟩],
     some (.ok ⟨t!"https://B.example/x", 200, [(t!"content-type", t!"text/html")], [104, 105]⟩)) := by decide +kernel

/-- C50, exception: a redirect to a relative location, or with the scheme in capitals, is refused. -/
theorem c50_relative : (curlFetch ⟨fun _ => 0, fun _ => redirect0 t!"/next"⟩ uni0 t!"a" 5 t!"http://a.example/" none []).2 =
      some (.error .http) ∧
    (curlFetch ⟨fun _ => 0, fun _ => redirect0 t!"HTTP://a.example/"⟩ uni0 t!"a" 5 t!"http://a.example/" none []).2 =
      some (.error .http) := by decide +kernel

/-- C50, exception: only the time bounds the number of redirects: while the clock stands still, redirects are followed
    without end. -/
theorem c50_endless : ∃ E : Env, ∀ n, ∃ reqs : List Request, curlFetch E uni0 t!"a" n t!"http://a.example/" none [] = (reqs, none) ∧
    reqs.length = n := by
  refine ⟨⟨fun _ => 0, fun _ => redirect0 t!"http://a.example/"⟩, fun n => ?_⟩
  suffices ∀ n post past k, ∃ reqs : List Request, loop ⟨fun _ => 0, fun _ => redirect0 t!"http://a.example/"⟩ uni0
      (headerList t!"a" []) 20 n t!"http://a.example/" 20 post past k = (reqs, none) ∧ reqs.length = past.length + n by
    obtain ⟨reqs, h1, h2⟩ := this n false [] 1
    exact ⟨reqs, h1, by simpa using h2⟩
  intro n
  induction n with
  | zero => intro post past k; exact ⟨past, rfl, rfl⟩
  | succ n ih =>
    intro post past k
    have hu : Urinorm.urinorm uni0 t!"http://a.example/" = .ok t!"http://a.example/" := by decide +kernel
    have hp : parseHeaders (headerData (Utf8.encode t!"HTTP/1.1 302 Found") [(Utf8.encode t!"Location", Utf8.encode t!"http://a.example/")]) =
      .ok [(t!"location", t!"http://a.example/")] := by decide +kernel
    obtain ⟨reqs, h1, h2⟩ := ih false (past ++ [⟨t!"http://a.example/", post, headerList t!"a" [], 20⟩]) (k + 1)
    refine ⟨reqs, ?_, by rw [h2]; simp; omega⟩
    rw [← h1, loop.eq_def]
    simp only [hu, redirect0, writeAll, hp]
    rw [if_neg (by decide), if_neg (by decide), if_pos (by decide)]
    rfl

/-- C50: Headers are read back as they were sent, with their names in lower case; of equal names the last one counts. -/
theorem c50_headers (status : Bytes) (hs : List (Bytes × Bytes)) (name value : Bytes → Str) (h1 : 10 ∉ status)
    (h2 : (status.map lowerByte).take 13 ≠ Utf8.encode t!"http/1.1 100 ")
    (h3 : ∀ p ∈ hs, HeaderOk p.1 p.2 ∧ Utf8.decode (p.1.map lowerByte) = .ok (name p.1) ∧ Utf8.decode p.2 = .ok (value p.2)) :
    parseHeaders (headerData status hs) = .ok (Dict.ofPairs (hs.map fun p => (name p.1, value p.2))) := by
  apply parse_lines status hs name value _ h3
  rw [headerData, crlf, colon, List.append_assoc,
    show status ++ [13, 10] ++ (hs.flatMap (fun p => p.1 ++ [58, 32] ++ p.2 ++ [13, 10]) ++ [13, 10]) =
      (status ++ [13]) ++ 10 :: (hs.flatMap (fun p => p.1 ++ [58, 32] ++ p.2 ++ [13, 10]) ++ [13, 10]) by simp,
    linesOf_append _ _ (by simp [h1]), linesOf_headers hs (fun p hp => ⟨(h3 p hp).1.2.1, (h3 p hp).1.2.2.1⟩), afterStatus,
    if_neg]
  · rfl
  · intro e
    apply h2
    rw [List.headD_cons, List.map_append, List.take_append] at e
    by_cases hl : 13 ≤ (status.map lowerByte).length
    · rw [show 13 - (status.map lowerByte).length = 0 by omega] at e
      simpa using e
    · exfalso
      have hm : (13 : UInt8) ∈ Utf8.encode t!"http/1.1 100 " := by
        rw [← e]
        apply List.mem_append_right
        rw [List.take_of_length_le (by simp at hl ⊢; omega)]
        simp [lowerByte]
      revert hm; decide

example : HeaderOk (Utf8.encode t!"Location") (Utf8.encode t!"http://a.example/é") ∧
    parseHeaders (headerData (Utf8.encode t!"HTTP/1.1 200 OK") [(Utf8.encode t!"Location", Utf8.encode t!"http://a.example/é"),
      (Utf8.encode t!"X", Utf8.encode t!"1"), (Utf8.encode t!"x", [])]) = .ok [(t!"location", t!"http://a.example/é"), (t!"x", [])] := by
  unfold HeaderOk; decide +kernel

/-- C50: So texts can be sent as headers: names in ASCII are read in lower case, and values as they are. -/
theorem c50_header_texts (status : Str) (hs : List (Str × Str)) (h1 : '\n' ∉ status)
    (h2 : ¬ t!"http/1.1 100 " <+: status.map Char.toLower) (h0 : ∀ c ∈ status, c.toNat < 128)
    (h3 : ∀ p ∈ hs, HeaderOk (Utf8.encode p.1) (Utf8.encode p.2) ∧ ∀ c ∈ p.1, c.toNat < 128) :
    parseHeaders (headerData (Utf8.encode status) (hs.map fun p => (Utf8.encode p.1, Utf8.encode p.2))) =
      .ok (Dict.ofPairs (hs.map fun p => (p.1.map Char.toLower, p.2))) := by
  have hn : ∀ p ∈ hs, (match Utf8.decode ((Utf8.encode p.1).map lowerByte) with | .ok n => n | .error _ => []) =
      p.1.map Char.toLower := fun p hp => by rw [decode_lower _ (h3 p hp).2]
  have hv : ∀ p ∈ hs, (match Utf8.decode (Utf8.encode p.2) with | .ok n => n | .error _ => []) = p.2 :=
    fun p _ => by rw [Utf8.decode_encode]
  rw [c50_headers (Utf8.encode status) (hs.map fun p => (Utf8.encode p.1, Utf8.encode p.2))
    (fun b => match Utf8.decode (b.map lowerByte) with | .ok n => n | .error _ => [])
    (fun b => match Utf8.decode b with | .ok n => n | .error _ => [])
    (fun h => h1 (feed_mem _ h0 h))
    (fun e => h2 (Utf8.decode_prefix _ _ (Utf8.encode t!"http/1.1 100 ")
      (by rw [← e, encode_lower _ h0]; exact List.take_prefix 13 _) (Utf8.decode_encode _)))
    (fun p hp => by
      obtain ⟨q, hq, rfl⟩ := List.mem_map.1 hp
      exact ⟨(h3 q hq).1, by simp only [decode_lower _ (h3 q hq).2], by simp only [Utf8.decode_encode]⟩)]
  rw [List.map_map]
  congr 2
  refine List.map_congr_left fun p hp => ?_
  simp only [Function.comp]
  rw [hn p hp, hv p hp]

example : HeaderOk (Utf8.encode t!"X-XRDS-Location") (Utf8.encode t!"http://a.example/é") ∧
    parseHeaders (headerData (Utf8.encode t!"HTTP/1.1 200 OK") [(Utf8.encode t!"X-XRDS-Location", Utf8.encode t!"http://a.example/é")]) =
      .ok [(t!"x-xrds-location", t!"http://a.example/é")] := by
  unfold HeaderOk; decide +kernel

/-- C50: An answer that asks to continue before the headers is passed over. -/
theorem c50_continue (continue_ status : Bytes) (hs : List (Bytes × Bytes)) (name value : Bytes → Str)
    (h0 : 10 ∉ continue_) (hc : (continue_.map lowerByte).take 13 = Utf8.encode t!"http/1.1 100 ") (h1 : 10 ∉ status)
    (h3 : ∀ p ∈ hs, HeaderOk p.1 p.2 ∧ Utf8.decode (p.1.map lowerByte) = .ok (name p.1) ∧ Utf8.decode p.2 = .ok (value p.2)) :
    parseHeaders (continue_ ++ Utf8.encode t!"\r\n\r\n" ++ headerData status hs) =
      .ok (Dict.ofPairs (hs.map fun p => (name p.1, value p.2))) := by
  apply parse_lines status hs name value _ h3
  rw [headerData, crlf, colon, show Utf8.encode t!"\r\n\r\n" = [13, 10, 13, 10] by decide, List.append_assoc status,
    show continue_ ++ [13, 10, 13, 10] ++ (status ++ ([13, 10] ++ hs.flatMap (fun p => p.1 ++ [58, 32] ++ p.2 ++ [13, 10])) ++ [13, 10]) =
      (continue_ ++ [13]) ++ 10 :: ([13] ++ 10 :: ((status ++ [13]) ++ 10 :: (hs.flatMap (fun p => p.1 ++ [58, 32] ++ p.2 ++ [13, 10]) ++ [13, 10]))) by simp,
    linesOf_append _ _ (by simp [h0]), linesOf_append _ _ (by decide), linesOf_append _ _ (by simp [h1]),
    linesOf_headers hs (fun p hp => ⟨(h3 p hp).1.2.1, (h3 p hp).1.2.2.1⟩), afterStatus, if_pos]
  · rfl
  · rw [List.headD_cons, List.map_append, List.take_append, hc]
    have hl : 13 ≤ (continue_.map lowerByte).length := by
      have := congrArg List.length hc
      rw [List.length_take, show (Utf8.encode t!"http/1.1 100 ").length = 13 by decide] at this
      omega
    rw [show 13 - (continue_.map lowerByte).length = 0 by omega]; simp

example : parseHeaders (Utf8.encode t!"HTTP/1.1 100 Continue\r\n\r\nHTTP/1.1 200 OK\r\nA: b\r\n\r\n") = .ok [(t!"a", t!"b")] := by
  decide +kernel

/-- C50, exception: two such answers, or one of another protocol version, make the headers unreadable. -/
theorem c50_continue_twice :
    parseHeaders (Utf8.encode t!"HTTP/1.1 100 Continue\r\n\r\nHTTP/1.1 100 Continue\r\n\r\nHTTP/1.1 200 OK\r\nA: b\r\n\r\n") =
      .error .http ∧
    parseHeaders (Utf8.encode t!"HTTP/1.0 100 Continue\r\n\r\nHTTP/1.1 200 OK\r\nA: b\r\n\r\n") = .error .http := by
  decide +kernel

/-- C50: The urllib fetcher asks only for URLs that start with http:// or https://; it sends a POST request exactly if there
    is a body; what it returns is what was answered, no more than a mebibyte of the body. -/
theorem c50_urllib (open_ : Call → Except PyErr Response) (agent : Str) (url : Str) (body : Option Bytes) (headers : Dict Str Str) :
    (¬ IsHttp url → urllibFetch open_ agent url body headers = .error .valueError) ∧
    (IsHttp url → urllibFetch open_ agent url body headers =
      (open_ ⟨if body = none then t!"GET" else t!"POST", url, body, sentHeaders agent headers⟩).map fun r => { r with body := r.body.take (1024 * 1024) }) := by
  refine ⟨fun h => ?_, fun h => ?_⟩
  · rw [urllibFetch, if_pos]; simpa using fun x => h ((allowedURL_iff _).1 x)
  · rw [urllibFetch, if_neg (by simp [(allowedURL_iff _).2 h])]
    have : (if body.isSome then t!"POST" else t!"GET") = (if body = none then t!"GET" else t!"POST") := by cases body <;> rfl
    rw [this, withAgent_eq]
    cases open_ _ <;> rfl

/-- C50: The httplib2 fetcher asks only for URLs that start with http:// or https://. -/
theorem c50_httplib2 (request : Call → Except PyErr (Response × Option Str × Bool)) (url : Str) (body : Option Bytes)
    (headers : Dict Str Str) :
    (¬ IsHttp url → httplib2Fetch request url body headers = .error .valueError) ∧
    (IsHttp url → ∀ r, httplib2Fetch request url body headers = .ok r →
      ∃ r' location previous, request ⟨if body = none ∨ body = some [] then t!"GET" else t!"POST", url, body, headers⟩ =
        .ok (r', location, previous) ∧
        r = { r' with finalUrl := location.getD url } ∧ (location = none → previous = false ∧ r'.status ≠ 200)) := by
  refine ⟨fun h => ?_, fun h r hr => ?_⟩
  · rw [httplib2Fetch, if_pos]; simpa using fun x => h ((allowedURL_iff _).1 x)
  · rw [httplib2Fetch, if_neg (by simp [(allowedURL_iff _).2 h])] at hr
    have hm : methodFor body = (if body = none ∨ body = some [] then t!"GET" else t!"POST") := by
      rcases body with _ | _ | ⟨a, b⟩ <;> rfl
    rw [← hm]
    cases hq : request ⟨methodFor body, url, body, headers⟩ with
    | error e => rw [hq] at hr; simp at hr
    | ok x =>
      obtain ⟨r', l, previous⟩ := x
      rw [hq] at hr
      cases l with
      | some l => exact ⟨r', some l, previous, rfl, by simpa using hr.symm, by simp⟩
      | none =>
        simp only at hr
        split at hr
        · simp at hr
        · next hp =>
          simp at hp
          exact ⟨r', none, previous, rfl, by simpa using hr.symm, fun _ => ⟨by simpa using hp.1, hp.2⟩⟩

/-- C50: The requests fetcher asks for any URL, with the given headers, with a POST request if there is something in the body. -/
theorem c50_requests (request : Call → Except PyErr Response) (url : Str) (body : Option Bytes) (headers : Dict Str Str) :
    requestsFetch request url body headers =
      request ⟨if body = none ∨ body = some [] then t!"GET" else t!"POST", url, body, headers⟩ := by
  rw [requestsFetch]
  rcases body with _ | _ | ⟨a, b⟩ <;> rfl

/-- C50, exception: an empty body makes the httplib2 and requests fetchers send a GET request, the urllib and curl fetchers a
    POST request; the requests fetcher asks for any URL. -/
theorem c50_methods : (∀ url hs request, requestsFetch request url (some []) hs = request ⟨t!"GET", url, some [], hs⟩) ∧
    (∀ url agent hs open_, IsHttp url → urllibFetch open_ agent url (some []) hs =
      (open_ ⟨t!"POST", url, some [], sentHeaders agent hs⟩).map fun r => { r with body := r.body.take (1024 * 1024) }) ∧
    (∀ request, requestsFetch request t!"file:///etc/passwd" none [] = request ⟨t!"GET", t!"file:///etc/passwd", none, []⟩) :=
  ⟨fun _ _ _ => rfl, fun url agent hs open_ h => (c50_urllib open_ agent url (some []) hs).2 h, fun _ => rfl⟩

example : sentHeaders t!"me" [(t!"Accept", t!"*/*")] = [(t!"Accept", t!"*/*"), (t!"User-Agent", t!"me")] ∧
    sentHeaders t!"me" [(t!"User-Agent", t!"x"), (t!"A", t!"b")] = [(t!"User-Agent", t!"x"), (t!"A", t!"b")] := by decide

example : IsHttp t!"http://a" ∧ ¬ IsHttp t!"ftp://a" := ⟨.inl ⟨t!"a", rfl⟩, by rw [← allowedURL_iff]; decide⟩

/-- What the default fetcher is after some calls: of `setDefaultFetcher`, or (`none`) of `getDefaultFetcher`. -/
def defaultAfter (created : Fetcher) (d : Option Fetcher) : List (Option (Option Fetcher × Bool)) → Option Fetcher
  | [] => d
  | none :: r => defaultAfter created (getDefault created d).2 r
  | some (f, w) :: r => defaultAfter created (setDefault f w) r

/-- C50: The default fetcher is the last one that was set, or a new one if that is none, and wraps its exceptions unless it was
    set not to; asking for it does not change it. -/
theorem c50_default (created : Fetcher) (calls : List (Option (Option Fetcher × Bool))) :
    (getDefault created (defaultAfter created none calls)).1 =
      match ((calls.filterMap id).getLast?) with
      | some (some f, true) => .wrapped f
      | some (some f, false) => f
      | _ => .wrapped created := by
  have key : ∀ calls d, (getDefault created (defaultAfter created d calls)).1 =
      match ((calls.filterMap id).getLast?) with
      | some (some f, true) => .wrapped f
      | some (some f, false) => f
      | some (none, _) => .wrapped created
      | none => d.getD (.wrapped created) := by
    intro calls
    induction calls with
    | nil => intro d; cases d <;> rfl
    | cons c r ih =>
      intro d
      rcases c with _ | ⟨f, w⟩
      · rw [defaultAfter, ih]
        simp only [List.filterMap_cons, id]
        cases d <;> rfl
      · rw [defaultAfter, ih]
        simp only [List.filterMap_cons, id, List.getLast?_cons]
        cases hl : (r.filterMap id).getLast? with
        | none => cases f <;> cases w <;> rfl
        | some x => rcases x with ⟨_ | g, _ | _⟩ <;> rfl
  rw [key]
  cases (calls.filterMap id).getLast? with
  | none => rfl
  | some x => rcases x with ⟨_ | f, _ | _⟩ <;> rfl

/-- C50: A new default fetcher uses requests, curl, httplib2 or urllib: the first that is there; `usingCurl` says whether it is
    curl. -/
theorem c50_create (requests curl httplib2 : Bool) :
    createHTTPFetcher requests curl httplib2 =
      (if requests = true then .requests else if curl = true then .curl else if httplib2 = true then .httplib2 else .urllib) ∧
    (usingCurl (.wrapped (createHTTPFetcher requests curl httplib2)) = true ↔ curl = true ∧ requests = false) := by
  cases requests <;> cases curl <;> cases httplib2 <;> decide

/-- C50: A fetcher that wraps exceptions returns what the fetcher returns, and raises nothing but `HTTPFetchingError`. -/
theorem c50_wrap (x : Except Err Response) : (∀ r, wrap x = .ok r ↔ x = .ok r) ∧ ∀ e, wrap x = .error e → e = .fetchingError := by
  cases x with
  | ok r => exact ⟨fun r' => by simp [wrap], fun e h => by simp [wrap] at h⟩
  | error y => exact ⟨fun r' => by simp [wrap], fun e h => by simp [wrap] at h; exact h.symm⟩

end Props
