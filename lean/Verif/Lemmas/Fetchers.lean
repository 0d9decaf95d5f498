import Verif.Lemmas.Py
import Verif.Lemmas.Utf8
import Verif.Props.Urinorm
import Verif.Spec.Fetchers
/-! # Lemmas on fetching -/

namespace Fetchers
open Py Spec

theorem allowedURL_iff (u : Str) : allowedURL u = true ↔ IsHttp u := by
  simp [allowedURL, IsHttp, startsWith_iff]

theorem mem_redirectCodes (c : Nat) : c ∈ redirectCodes ↔ IsRedirect c := by
  simp [redirectCodes, IsRedirect]

theorem writeAll_some (data : Bytes) (chunks : List Bytes) (out : Bytes) (h : writeAll data chunks = some out) :
    out = data ++ chunks.flatten ∧
    ∀ pre c post, chunks = pre ++ c :: post → c ≠ [] → (data ++ pre.flatten).length ≤ 1024 * 1024 := by
  induction chunks generalizing data with
  | nil =>
    rw [writeAll] at h
    exact ⟨by simpa using (Option.some.inj h).symm, by intro pre c post e; cases pre <;> simp at e⟩
  | cons x r ih =>
    rw [writeAll] at h
    split at h
    · next hl =>
      split at h
      · next hx =>
        subst hx
        obtain ⟨h1, h2⟩ := ih data h
        refine ⟨by simpa using h1, ?_⟩
        intro pre c post e hc
        cases pre with
        | nil => obtain ⟨rfl, -⟩ := List.cons.inj e; exact absurd rfl hc
        | cons y pre => obtain ⟨rfl, rfl⟩ := List.cons.inj e; simpa using h2 pre c post rfl hc
      · simp at h
    · next hl =>
      obtain ⟨h1, h2⟩ := ih _ h
      refine ⟨by simpa using h1, ?_⟩
      intro pre c post e hc
      cases pre with
      | nil => simp [MAX_RESPONSE_KB] at hl; simpa using hl
      | cons y pre => obtain ⟨rfl, rfl⟩ := List.cons.inj e; simpa using h2 pre c post rfl hc

theorem writeAll_none (data : Bytes) (chunks : List Bytes) : writeAll data chunks = none ↔
    ∃ pre c post, chunks = pre ++ c :: post ∧ c ≠ [] ∧ 1024 * 1024 < (data ++ pre.flatten).length := by
  cases h : writeAll data chunks with
  | some out =>
    obtain ⟨-, h2⟩ := writeAll_some data chunks out h
    constructor
    · intro x; simp at x
    · rintro ⟨pre, c, post, e, hc, hl⟩
      have := h2 pre c post e hc; omega
  | none =>
    refine ⟨fun _ => ?_, fun _ => rfl⟩
    induction chunks generalizing data with
    | nil => simp [writeAll] at h
    | cons x r ih =>
      rw [writeAll] at h
      split at h
      · next hl =>
        split at h
        · next hx =>
          subst hx
          obtain ⟨pre, c, post, rfl, hc, h3⟩ := ih data h
          exact ⟨[] :: pre, c, post, rfl, hc, by simpa using h3⟩
        · next hx => exact ⟨[], x, r, rfl, hx, by simpa [MAX_RESPONSE_KB] using hl⟩
      · obtain ⟨pre, c, post, rfl, hc, h3⟩ := ih _ h
        exact ⟨x :: pre, c, post, rfl, hc, by simpa using h3⟩

theorem fits_iff (chunks : List Bytes) (data : Bytes) :
    writeAll [] chunks = some data ↔ Fits chunks ∧ data = chunks.flatten := by
  constructor
  · intro h
    obtain ⟨h1, h2⟩ := writeAll_some [] chunks data h
    exact ⟨fun pre c post e hc => by simpa using h2 pre c post e hc, by simpa using h1⟩
  · rintro ⟨h1, rfl⟩
    cases h : writeAll [] chunks with
    | some out => rw [(writeAll_some [] chunks out h).1]; simp
    | none =>
      obtain ⟨pre, c, post, e, hc, hl⟩ := (writeAll_none [] chunks).1 h
      have := h1 pre c post e hc
      simp only [List.nil_append] at hl; omega

theorem fits_none (chunks : List Bytes) (h : writeAll [] chunks = none) : ¬ Fits chunks := by
  intro hf
  rw [(fits_iff chunks chunks.flatten).2 ⟨hf, rfl⟩] at h; simp at h

/-- what the loop does, from a state on the way -/
theorem loop_spec (E : Env) (U : Url.Uni) (headers : List Str) (url0 : Str) (post0 : Bool) (n : Nat) (url : Str) (off : Int)
    (post : Bool) (past : List Request) (urls : List Str) (k : Nat) (hk : k = past.length + 1)
    (hlen : urls.length = past.length + 1) (hlast : urls[past.length]? = some url)
    (hoff : off = timeLeft E past.length) (hpost : post = (post0 && past.length == 0))
    (hF : Followed E U url0 post0 headers urls past) :
    ∃ urls' reqs out, loop E U headers (E.time 0 + 20) n url off post past k = (reqs, out) ∧
      Followed E U url0 post0 headers urls' reqs ∧
      (match out with
        | none => reqs.length = past.length + n ∧ urls'.length = reqs.length + 1 ∧ (∀ i, past.length ≤ i → i < past.length + n → 0 < timeLeft E i)
        | some r => Ends E U urls' reqs r ∧ reqs.length ≤ past.length + n) := by
  induction n generalizing url off post past urls k with
  | zero => exact ⟨urls, past, none, rfl, hF, by omega, hlen, by intros; omega⟩
  | succ n ih =>
    rw [loop.eq_def]
    simp only
    by_cases h1 : off ≤ 0
    · rw [if_pos h1]
      exact ⟨urls, past, _, rfl, hF, .late hlen (hoff ▸ h1), by omega⟩
    rw [if_neg h1]
    have hpos : 0 < timeLeft E past.length := by omega
    by_cases h2 : ¬ allowedURL url = true
    · rw [if_pos (by simpa using h2)]
      refine ⟨urls, past, _, rfl, hF, .refused url hlen hpos hlast (fun x => h2 ((allowedURL_iff _).2 x)), by omega⟩
    have h2 := Decidable.not_not.1 h2
    rw [if_neg (by simp [h2])]
    have hw := (allowedURL_iff _).1 h2
    cases hu : Urinorm.urinorm U url with
    | error e =>
      have := Props.c26_errors U url e hu
      subst this
      exact ⟨urls, past, _, rfl, hF, .malformed url hlen hpos hlast hw hu, by omega⟩
    | ok u =>
      simp only
      have hF' : Followed E U url0 post0 headers urls (past ++ [⟨u, post, headers, off⟩]) := by
        refine ⟨hF.first, ?_, ?_⟩
        · intro i v hv
          have hi : i + 1 < urls.length := (List.getElem?_eq_some_iff.1 hv).1
          rw [List.take_append_of_le_length (by omega)]
          exact hF.next i v hv
        · intro i r hr
          by_cases hi : i < past.length
          · rw [List.getElem?_append_left hi] at hr; exact hF.asked i r hr
          · have hi' : i = past.length := by
              have := (List.getElem?_eq_some_iff.1 hr).1
              simp at this; omega
            subst hi'
            rw [List.getElem?_append_right (by omega)] at hr
            simp at hr
            subst hr
            exact ⟨url, hlast, hw, hu, hpost, rfl, hoff, by rw [hoff]; exact hpos⟩
      have hlen' : urls.length = (past ++ [(⟨u, post, headers, off⟩ : Request)]).length := by simp [hlen]
      have hlast' : urls.getLast? = some url := by
        rw [List.getLast?_eq_getElem?, hlen, Nat.add_sub_cancel]; exact hlast
      generalize hp : past ++ [(⟨u, post, headers, off⟩ : Request)] = past' at hF' hlen' ⊢
      have hpl : past'.length = past.length + 1 := by rw [← hp]; simp
      cases hr : E.reply past' with
      | failed => exact ⟨urls, past', _, rfl, hF', .failed hlen' hr, by omega⟩
      | got header chunks code =>
        simp only
        cases hwr : writeAll [] chunks with
        | none => exact ⟨urls, past', _, rfl, hF', .long hlen' header chunks code hr (fits_none _ hwr), by omega⟩
        | some data =>
          simp only
          cases hph : parseHeaders header with
          | error e => exact ⟨urls, past', _, rfl, hF', .unreadable hlen' header chunks code e hr ((fits_iff _ _).1 hwr).1 hph, by omega⟩
          | ok hs =>
            simp only
            have ha : Answered E past' data hs code := ⟨header, chunks, hr, ((fits_iff _ _).1 hwr).1, ((fits_iff _ _).1 hwr).2, hph⟩
            by_cases hc : ¬ code ∈ redirectCodes
            · rw [if_neg hc]
              exact ⟨urls, past', _, rfl, hF', .done hlen' ⟨url, code, hs, data⟩ hlast' ha
                (fun x => hc ((mem_redirectCodes _).2 x)), by omega⟩
            have hc := Decidable.not_not.1 hc
            rw [if_pos hc]
            cases hl : hs.get? t!"location" with
            | none => exact ⟨urls, past', _, rfl, hF', .nowhere hlen' data hs code ha ((mem_redirectCodes _).1 hc) hl, by omega⟩
            | some l =>
              simp only
              obtain ⟨urls', reqs, out, i1, i2, i3⟩ := ih l (E.time 0 + 20 - E.time k) false past' (urls ++ [l]) (k + 1) (by omega)
                (by simp; omega) (by rw [List.getElem?_append_right (by omega)]; simp [← hlen'])
                (by rw [timeLeft, if_neg (by omega), hk, hpl])
                (by rw [hpl]; simp)
                (by
                  refine ⟨?_, ?_, ?_⟩
                  · rw [List.getElem?_append_left (by omega)]; exact hF'.first
                  · intro i v hv
                    by_cases hi : i + 1 < urls.length
                    · rw [List.getElem?_append_left hi] at hv; exact hF'.next i v hv
                    · have hi' : i + 1 = urls.length := by
                        have := (List.getElem?_eq_some_iff.1 hv).1
                        simp at this; omega
                      rw [List.getElem?_append_right (by omega), hi'] at hv
                      simp at hv
                      subst hv
                      refine ⟨data, hs, code, ?_, (mem_redirectCodes _).1 hc, hl⟩
                      rw [hi', hlen', List.take_length]; exact ha
                  · intro i r hr'
                    obtain ⟨v, hv, hrest⟩ := hF'.asked i r hr'
                    have hi := (List.getElem?_eq_some_iff.1 hv).1
                    exact ⟨v, by rw [List.getElem?_append_left hi]; exact hv, hrest⟩)
              refine ⟨urls', reqs, out, i1, i2, ?_⟩
              cases out with
              | none =>
                obtain ⟨a, b, c⟩ := i3
                refine ⟨by omega, b, ?_⟩
                intro i hi1 hi2
                by_cases hi : i = past.length
                · subst hi; exact hpos
                · exact c i (by omega) (by omega)
              | some r => exact ⟨i3.1, by have := i3.2; omega⟩

theorem urinorm_http (U : Url.Uni) (u r : Str) (h : Urinorm.urinorm U u = .ok r) : IsHttp r := by
  obtain ⟨scheme, ui, host, port, path, query, fragment, hr, hs, -⟩ := Props.c26_shape U u r h
  rcases hs with rfl | rfl
  · left; exact ⟨ui ++ host ++ port ++ '/' :: path ++ query ++ fragment, by rw [hr]; simp⟩
  · right; exact ⟨ui ++ host ++ port ++ '/' :: path ++ query ++ fragment, by rw [hr]; simp⟩

/-! ## headers -/

theorem splitByte_ne_nil (b : UInt8) (s : Bytes) : splitByte b s ≠ [] := by
  cases s with
  | nil => simp [splitByte]
  | cons x xs => rw [splitByte]; split; simp; split <;> simp

theorem splitByte_append (b : UInt8) (x y : Bytes) (h : b ∉ x) : splitByte b (x ++ b :: y) = x :: splitByte b y := by
  induction x with
  | nil => simp [splitByte]
  | cons c r ih =>
    simp only [List.mem_cons, not_or] at h
    rw [List.cons_append, splitByte, if_neg (fun e => h.1 e.symm), ih h.2]

theorem linesOf_append (x y : Bytes) (h : 10 ∉ x) : linesOf (x ++ 10 :: y) = x :: linesOf y := by
  unfold linesOf
  rw [splitByte_append 10 x y h]
  cases hs : splitByte 10 y with
  | nil => exact absurd hs (splitByte_ne_nil _ _)
  | cons a r =>
    rw [List.getLast?_cons_cons]
    split
    · rw [List.dropLast_cons_of_ne_nil (by simp)]
    · rfl

theorem linesOf_nil : linesOf [] = [] := rfl

theorem crlf : Utf8.encode t!"\r\n" = [13, 10] := by decide
theorem colon : Utf8.encode t!": " = [58, 32] := by decide

theorem dropWhile_nil {α : Type} {p : α → Bool} {l : List α} (h : ∀ x ∈ l, p x = true) : l.dropWhile p = [] := by
  induction l with
  | nil => rfl
  | cons x r ih => rw [List.dropWhile_cons_of_pos (h x (by simp)), ih (fun y hy => h y (List.mem_cons_of_mem _ hy))]

/-- bytes that `strip` leaves, with others around them -/
theorem strip_cr (x : Bytes) (h : stripBytes x = x) : stripBytes (x ++ [13]) = x := by
  unfold stripBytes at *
  by_cases hx : x = []
  · subst hx; rfl
  · rw [List.dropWhile_append]
    split
    · next he =>
      rw [List.isEmpty_iff] at he
      rw [he] at h
      simp at h; exact absurd h hx
    · rw [List.reverse_append]
      simp only [List.reverse_cons, List.reverse_nil, List.nil_append, List.cons_append]
      rw [List.dropWhile_cons_of_pos (by decide)]
      exact h

theorem strip_space (x : Bytes) : stripBytes (32 :: x) = stripBytes x := by
  unfold stripBytes; rw [List.dropWhile_cons_of_pos (by decide)]

theorem strip_line (name value : Bytes) (hn : stripBytes name = name) (h0 : name ≠ []) :
    ∃ v, stripBytes (name ++ 58 :: 32 :: value ++ [13]) = name ++ 58 :: v ∧ stripBytes v = stripBytes value := by
  -- the first byte of the name is not a space
  have hd : name.dropWhile isSpaceByte = name := by
    unfold stripBytes at hn
    cases name with
    | nil => rfl
    | cons b r =>
      by_cases hb : isSpaceByte b = true
      · exfalso
        have : (List.dropWhile isSpaceByte (List.dropWhile isSpaceByte (b :: r)).reverse).reverse.length ≤ r.length := by
          rw [List.length_reverse]
          refine Nat.le_trans (List.dropWhile_sublist _).length_le ?_
          rw [List.length_reverse, List.dropWhile_cons_of_pos hb]
          exact (List.dropWhile_sublist _).length_le
        rw [hn] at this; simp at this; omega
      · rw [List.dropWhile_cons_of_neg hb]
  have hdw : ∀ y : Bytes, (name ++ y).dropWhile isSpaceByte = name ++ y := by
    intro y
    rw [List.dropWhile_append, hd]
    cases name with
    | nil => exact absurd rfl h0
    | cons b r => rfl
  -- stripping at the end stops at the colon at the latest
  have hrev : ∀ (p q : Bytes), ∃ v, ((p ++ 58 :: q).reverse.dropWhile isSpaceByte).reverse = p ++ 58 :: v ∧
      v = (q.reverse.dropWhile isSpaceByte).reverse := by
    intro p q
    refine ⟨_, ?_, rfl⟩
    rw [List.reverse_append, List.reverse_cons, List.append_assoc, List.dropWhile_append]
    split
    · next he =>
      rw [List.isEmpty_iff] at he
      rw [he, List.singleton_append, List.dropWhile_cons_of_neg (by decide)]
      simp
    · simp
  obtain ⟨v, h1, h2⟩ := hrev name (32 :: value ++ [13])
  refine ⟨v, ?_, ?_⟩
  · unfold stripBytes
    rw [List.append_assoc, hdw]
    exact h1
  · -- stripping twice at the end
    have idem : ∀ y : Bytes, stripBytes ((y.reverse.dropWhile isSpaceByte).reverse) = stripBytes y := by
      intro y
      -- the part that is removed consists of spaces
      have key : ∀ z : Bytes, (∀ b ∈ z, isSpaceByte b = true) → ∀ w, stripBytes (w ++ z) = stripBytes w := by
        intro z hz w
        unfold stripBytes
        rw [List.dropWhile_append]
        split
        · next he =>
          rw [List.isEmpty_iff] at he
          rw [he, dropWhile_nil hz]
        · rw [List.reverse_append, List.dropWhile_append]
          rw [show z.reverse.dropWhile isSpaceByte = [] from dropWhile_nil (by simpa using hz)]
          rfl
      have hsplit : y = (y.reverse.dropWhile isSpaceByte).reverse ++ (y.reverse.takeWhile isSpaceByte).reverse := by
        rw [← List.reverse_append, List.takeWhile_append_dropWhile, List.reverse_reverse]
      refine Eq.trans ?_ (congrArg stripBytes hsplit.symm)
      rw [key]
      intro b hb
      rw [List.mem_reverse] at hb
      exact List.all_eq_true.1 (List.all_takeWhile) b hb
    rw [h2, idem]
    have : stripBytes (32 :: value ++ [13]) = stripBytes value := by
      rw [List.cons_append, strip_space]
      unfold stripBytes
      rw [List.dropWhile_append]
      split
      · next he => rw [List.isEmpty_iff] at he; rw [he]; rfl
      · rw [List.reverse_append]; rfl
    exact this

theorem cutByte_append (b : UInt8) (x y : Bytes) (h : b ∉ x) : cutByte b (x ++ b :: y) = some (x, y) := by
  induction x with
  | nil => simp [cutByte]
  | cons c r ih =>
    simp only [List.mem_cons, not_or] at h
    rw [List.cons_append, cutByte, if_neg (fun e => h.1 e.symm), ih h.2]; rfl

theorem linesOf_headers (hs : List (Bytes × Bytes)) (h : ∀ p ∈ hs, 10 ∉ p.1 ∧ 10 ∉ p.2) :
    linesOf (hs.flatMap (fun p => p.1 ++ [58, 32] ++ p.2 ++ [13, 10]) ++ [13, 10]) =
      hs.map (fun p => p.1 ++ 58 :: 32 :: p.2 ++ [13]) ++ [[13]] := by
  induction hs with
  | nil => decide
  | cons p r ih =>
    rw [List.flatMap_cons, List.map_cons, List.cons_append, ← ih (fun q hq => h q (List.mem_cons_of_mem _ hq)),
      ← linesOf_append]
    · simp
    · have := h p (by simp); simp [this.1, this.2]

theorem foldlM_headers (hs : List (Bytes × Bytes)) (name value : Bytes → Str) (lines : List Bytes) (d : Dict Str Str)
    (hl : lines.length = hs.length)
    (h : ∀ i (hi : i < hs.length), ∃ v, lines[i]? = some (hs[i].1 ++ 58 :: v) ∧ 58 ∉ hs[i].1 ∧
      Utf8.decode (stripBytes v) = .ok (value hs[i].2) ∧ Utf8.decode (hs[i].1.map lowerByte) = .ok (name hs[i].1)) :
    lines.foldlM headerLine d = .ok (d.update (hs.map fun p => (name p.1, value p.2))) := by
  induction hs generalizing lines d with
  | nil => rw [List.length_nil, List.length_eq_zero_iff] at hl; subst hl; rfl
  | cons p r ih =>
    cases lines with
    | nil => simp at hl
    | cons l ls =>
      obtain ⟨v, h1, h2, h3, h4⟩ := h 0 (by simp)
      simp only [List.getElem?_cons_zero, Option.some.injEq, List.getElem_cons_zero] at h1 h2 h3 h4
      rw [List.foldlM_cons]
      have : headerLine d l = .ok (d.set (name p.1) (value p.2)) := by
        rw [headerLine, h1, cutByte_append _ _ _ h2]
        simp only [h3, h4]
      rw [this]
      show (ls.foldlM headerLine _) = _
      rw [ih ls _ (by simpa using hl)]
      · rfl
      · intro i hi
        have := h (i + 1) (by simpa using hi)
        simpa using this

theorem parse_lines (status : Bytes) (hs : List (Bytes × Bytes)) (name value : Bytes → Str) (data : Bytes)
    (h3 : ∀ p ∈ hs, HeaderOk p.1 p.2 ∧ Utf8.decode (p.1.map lowerByte) = .ok (name p.1) ∧ Utf8.decode p.2 = .ok (value p.2))
    (hd : afterStatus (linesOf data) = hs.map (fun p => p.1 ++ 58 :: 32 :: p.2 ++ [13]) ++ [[13]]) :
    parseHeaders data = .ok (Dict.ofPairs (hs.map fun p => (name p.1, value p.2))) := by
  rw [parseHeaders, hd]
  simp only [List.map_append, List.map_cons, List.map_nil, List.getLast?_concat, List.dropLast_concat]
  rw [if_neg (by decide), List.map_map]
  rw [foldlM_headers hs name value]
  · rfl
  · simp
  · intro i hi
    obtain ⟨⟨s1, s2, s3, s4, s5, s6⟩, d1, d2⟩ := h3 hs[i] (List.getElem_mem hi)
    obtain ⟨v, e1, e2⟩ := strip_line hs[i].1 hs[i].2 s4 s5
    refine ⟨v, ?_, s1, by rw [e2, s6]; exact d2, d1⟩
    rw [List.getElem?_map, List.getElem?_eq_getElem hi]
    exact congrArg some e1

theorem withAgent_eq (userAgent : Str) (headers : Dict Str Str) : withAgent userAgent headers = sentHeaders userAgent headers := by
  have hset : ∀ (d : Dict Str Str) (k v : Str), k ∉ d.map Prod.fst → d.set k v = d ++ [(k, v)] := by
    intro d k v
    induction d with
    | nil => intro _; rfl
    | cons p d ih =>
      intro h
      rw [List.map_cons, List.mem_cons, not_or] at h
      rw [Dict.set.eq_def]
      simp only
      rw [if_neg (fun e => h.1 e.symm), ih h.2, List.cons_append]
  have hhas : ∀ (d : Dict Str Str) (k : Str), d.has k = true ↔ k ∈ d.map Prod.fst := by
    intro d k
    induction d with
    | nil => simp [Dict.has, Dict.get?]
    | cons p d ih =>
      rw [Dict.has, Dict.get?.eq_def]
      simp only
      by_cases e : p.1 = k
      · rw [if_pos e]; simp [e]
      · rw [if_neg e, List.map_cons, List.mem_cons]
        have := ih
        rw [Dict.has] at this
        rw [this]
        exact ⟨.inr, fun h => h.resolve_left (fun h => e h.symm)⟩
  rw [withAgent, sentHeaders]
  by_cases h : t!"User-Agent" ∈ headers.map Prod.fst
  · rw [if_pos ((hhas _ _).2 h), if_pos h, List.append_nil]
  · rw [if_neg (fun e => h ((hhas _ _).1 e)), if_neg h, hset _ _ _ h]

/-- lower case, of a text in ASCII and of its bytes -/
theorem encode_lower (s : Str) (h : ∀ c ∈ s, c.toNat < 128) : (Utf8.encode s).map lowerByte = Utf8.encode (s.map Char.toLower) := by
  induction s with
  | nil => rfl
  | cons c r ih =>
    have hc : ∀ n : Fin 128, (Utf8.encodeChar (Char.ofNat n)).map lowerByte = Utf8.encodeChar (Char.ofNat n).toLower := by
      decide +kernel
    have := hc ⟨c.toNat, h c List.mem_cons_self⟩
    simp only [Char.ofNat_toNat] at this
    rw [Utf8.encode, List.flatMap_cons, List.map_append, this, List.map_cons, Utf8.encode, List.flatMap_cons]
    exact congrArg _ (ih fun d hd => h d (List.mem_cons_of_mem _ hd))

theorem decode_lower (s : Str) (h : ∀ c ∈ s, c.toNat < 128) :
    Utf8.decode ((Utf8.encode s).map lowerByte) = .ok (s.map Char.toLower) := by
  rw [encode_lower s h, Utf8.decode_encode]

theorem feed_mem (s : Str) (h : ∀ c ∈ s, c.toNat < 128) (hm : 10 ∈ Utf8.encode s) : '\n' ∈ s := by
  rw [Utf8.encode, List.mem_flatMap] at hm
  obtain ⟨c, hc, hb⟩ := hm
  have hk : ∀ n : Fin 128, 10 ∈ Utf8.encodeChar (Char.ofNat n) → Char.ofNat n = '\n' := by decide +kernel
  have := hk ⟨c.toNat, h c hc⟩
  simp only [Char.ofNat_toNat] at this
  exact this hb ▸ hc

end Fetchers
