import Verif.Lemmas.TrustRoot
import Verif.Lemmas.Urinorm
import Verif.Props.Oidutil
/-! # URLs with arguments appended to them -/

namespace Url
open Py

theorem mem_dropWhile_of {p : Char → Bool} {c : Char} (hc : p c = false) {l : Str} :
    c ∈ l.dropWhile p ↔ c ∈ l := by
  induction l with
  | nil => simp
  | cons a l ih =>
    rw [List.dropWhile_cons]
    split
    · next h =>
      rw [ih, List.mem_cons]
      constructor
      · exact .inr
      · rintro (rfl | h')
        · rw [h] at hc; cases hc
        · exact h'
    · rfl

theorem mem_cleanUrl {c : Char} (hc : 0x20 < c.toNat) {u : Str} : c ∈ cleanUrl u ↔ c ∈ u := by
  have hp : (fun c : Char => decide (c.toNat ≤ 0x20)) c = false := by simp; omega
  rw [cleanUrl, List.mem_filter, mem_dropWhile_of hp]
  have e1 : c ≠ '\t' := by rintro rfl; revert hc; decide
  have e2 : c ≠ '\r' := by rintro rfl; revert hc; decide
  have e3 : c ≠ '\n' := by rintro rfl; revert hc; decide
  simp [e1, e2, e3]

theorem cleanUrl_append (u x : Str) (hx : ∀ c ∈ x, 0x20 < c.toNat) : cleanUrl (u ++ x) = cleanUrl u ++ x := by
  have hf : x.filter (fun c => !(c == '\t' || c == '\r' || c == '\n')) = x := by
    rw [List.filter_eq_self]
    intro a ha
    have := hx a ha
    have e1 : a ≠ '\t' := by rintro rfl; revert this; decide
    have e2 : a ≠ '\r' := by rintro rfl; revert this; decide
    have e3 : a ≠ '\n' := by rintro rfl; revert this; decide
    simp [e1, e2, e3]
  have hd : x.dropWhile (fun c => decide (c.toNat ≤ 0x20)) = x := by
    cases x with
    | nil => rfl
    | cons a t =>
      have := hx a (by simp)
      rw [List.dropWhile_cons_of_neg]; simp; omega
  rw [cleanUrl, cleanUrl, List.dropWhile_append]
  split
  · next h =>
    rw [List.isEmpty_iff] at h
    rw [h, hd, hf]; rfl
  · rw [List.filter_append, hf]

theorem cut_append_left {c : Char} {a b : Str} (h : c ∈ a) :
    ∃ p q, cut c a = some (p, q) ∧ cut c (a ++ b) = some (p, q ++ b) ∧ c ∉ p := by
  cases hc : cut c a with
  | none => exact absurd h (cut_eq_none_iff _ _ |>.1 hc)
  | some r =>
    obtain ⟨p, q⟩ := r
    obtain ⟨rfl, hp⟩ := (cut_eq_some_iff _ _ _ _).1 hc
    exact ⟨p, q, rfl, by rw [List.append_assoc, List.cons_append, cut_append _ _ _ hp], hp⟩

theorem splitScheme_append (u x : Str) (hx : ':' ∉ x) : splitScheme (u ++ x) = ((splitScheme u).1, (splitScheme u).2 ++ x) := by
  by_cases h : ':' ∈ u
  · obtain ⟨p, q, h1, h2, -⟩ := cut_append_left (b := x) h
    rw [splitScheme, splitScheme, h1, h2]
    cases p with
    | nil => rfl
    | cons c p => simp only; split <;> rfl
  · have h1 : cut ':' u = none := (cut_eq_none_iff _ _).2 h
    have h2 : cut ':' (u ++ x) = none := (cut_eq_none_iff _ _).2 (by simp [h, hx])
    rw [splitScheme, splitScheme, h1, h2]

theorem mem_splitScheme {c : Char} (hc : isSchemeChar c = false) (hne : c ≠ ':') (u : Str) :
    c ∈ (splitScheme u).2 ↔ c ∈ u := by
  rw [splitScheme]
  cases h : cut ':' u with
  | none => rfl
  | some p =>
    obtain ⟨s, rest⟩ := p
    obtain ⟨rfl, hp⟩ := (cut_eq_some_iff _ _ _ _).1 h
    cases s with
    | nil => rfl
    | cons a s =>
      simp only
      split
      · next hall =>
        simp only [Bool.and_eq_true, List.all_eq_true] at hall
        have : c ∉ a :: s := fun hm => by rw [hall.2 c hm] at hc; cases hc
        simp only [List.mem_append, List.mem_cons] at this ⊢
        constructor
        · exact fun h => .inr (.inr h)
        · rintro (h | h | h)
          · exact absurd h this
          · exact absurd h hne
          · exact h
      · rfl

theorem mem_splitScheme_sub {c : Char} (u : Str) (h : c ∈ (splitScheme u).2) : c ∈ u := by
  rw [splitScheme] at h
  cases hc : cut ':' u with
  | none => rw [hc] at h; exact h
  | some p =>
    obtain ⟨s, rest⟩ := p
    rw [hc] at h
    obtain ⟨rfl, -⟩ := (cut_eq_some_iff _ _ _ _).1 hc
    cases s with
    | nil => exact h
    | cons a s =>
      simp only at h
      split at h
      · simp [h]
      · exact h

theorem splitNetloc_append_right (r x : Str) (h : (∃ c ∈ r, isDelim c = true) ∨ ∃ c t, x = c :: t ∧ isDelim c = true) :
    splitNetloc (r ++ x) = ((splitNetloc r).1, (splitNetloc r).2 ++ x) := by
  obtain ⟨h1, h2⟩ := splitNetloc_spec r
  have hr : (splitNetloc r).1 ++ (splitNetloc r).2 = r := List.takeWhile_append_dropWhile
  have e : r ++ x = (splitNetloc r).1 ++ ((splitNetloc r).2 ++ x) := by rw [← List.append_assoc, hr]
  rw [e]
  apply splitNetloc_append _ _ h1
  rcases h2 with h2 | ⟨c, t, h2, hc⟩
  · rw [h2, List.append_nil] at hr
    rw [h2]
    rcases h with ⟨c, hc, hd⟩ | ⟨c, t, rfl, hd⟩
    · rw [h1 c (by rw [hr]; exact hc)] at hd; cases hd
    · exact .inr ⟨c, t, rfl, hd⟩
  · exact .inr ⟨c, t ++ x, by rw [h2]; rfl, hc⟩

theorem startsWith_slashes (r x : Str) (hx : ∀ t, x ≠ '/' :: t) : startsWith (r ++ x) t!"//" = startsWith r t!"//" := by
  rw [Bool.eq_iff_iff, startsWith_iff, startsWith_iff]
  constructor
  · rintro ⟨t, h⟩
    match r, h with
    | [], h => exact absurd h (hx _)
    | [a], h => simp at h; exact absurd h.2 (hx _)
    | a :: b :: r, h =>
      simp at h
      exact ⟨r, by simp [h.1, h.2.1]⟩
  · rintro ⟨t, rfl⟩; exact ⟨t ++ x, by simp⟩

/-- what follows the first question mark -/
theorem urlsplit_append (U : Uni) (u e : Str) (hu : '#' ∉ u) (he : ∀ c ∈ e, 0x20 < c.toNat ∧ c ≠ '#' ∧ c ≠ ':')
    (s : Split) (h : urlsplit U u = .ok s) :
    s.fragment = [] ∧
    urlsplit U (u ++ (if '?' ∈ u then '&' else '?') :: e) =
      .ok { s with query := if '?' ∈ u then s.query ++ '&' :: e else e } := by
  have hx : ∀ c ∈ (if '?' ∈ u then '&' else '?') :: e, 0x20 < c.toNat ∧ c ≠ '#' ∧ c ≠ ':' := by
    intro c hc
    rcases List.mem_cons.1 hc with rfl | hc
    · split <;> decide
    · exact he c hc
  rw [urlsplit, cleanUrl_append _ _ (fun c hc => (hx c hc).1), splitScheme_append _ _ (fun hc => (hx _ hc).2.2 rfl)]
  rw [urlsplit] at h
  have hq : '?' ∈ (splitScheme (cleanUrl u)).2 ↔ '?' ∈ u := by
    rw [mem_splitScheme (by decide) (by decide), mem_cleanUrl (by decide)]
  have hh : '#' ∉ (splitScheme (cleanUrl u)).2 := by
    rw [mem_splitScheme (by decide) (by decide), mem_cleanUrl (by decide)]; exact hu
  generalize (splitScheme (cleanUrl u)) = sch at *
  obtain ⟨scheme, r⟩ := sch
  simp only at h hq hh ⊢
  have hx2 : '#' ∉ (if '?' ∈ u then '&' else '?') :: e := fun hc => (hx _ hc).2.1 rfl
  rw [startsWith_slashes _ _ (by intro t ht; split at ht <;> cases ht)]
  have tail : ∀ p : Str, '#' ∉ p → ('?' ∈ p ↔ '?' ∈ u) → (cutOr '#' p = (p, [])) ∧
      cutOr '#' (p ++ (if '?' ∈ u then '&' else '?') :: e) = (p ++ (if '?' ∈ u then '&' else '?') :: e, []) ∧
      cutOr '?' (p ++ (if '?' ∈ u then '&' else '?') :: e) =
        ((cutOr '?' p).1, if '?' ∈ u then (cutOr '?' p).2 ++ '&' :: e else e) := by
    intro p hp hpq
    refine ⟨cutOr_not_mem _ _ hp, cutOr_not_mem _ _ (by rw [List.mem_append]; exact fun h => h.elim hp hx2), ?_⟩
    by_cases hm : '?' ∈ u
    · simp only [if_pos hm]
      obtain ⟨a, b, h1, h2, -⟩ := cut_append_left (b := '&' :: e) (hpq.2 hm)
      rw [cutOr, cutOr, h1, h2]
    · simp only [if_neg hm]
      rw [cutOr_append _ _ _ (fun h => hm (hpq.1 h)), cutOr_not_mem _ _ (fun h => hm (hpq.1 h))]
  by_cases hn : startsWith r t!"//" = true
  · obtain ⟨r2, rfl⟩ := (startsWith_iff _ _).1 hn
    rw [if_pos hn] at h ⊢
    have hd1 : List.drop 2 (t!"//" ++ r2) = r2 := rfl
    have hd2 : List.drop 2 (t!"//" ++ r2 ++ (if '?' ∈ u then '&' else '?') :: e) =
        r2 ++ (if '?' ∈ u then '&' else '?') :: e := rfl
    have hq2 : '?' ∈ r2 ↔ '?' ∈ u := by rw [← hq]; simp
    have hh2 : '#' ∉ r2 := fun h => hh (by simp [h])
    rw [hd1] at h
    rw [hd2, splitNetloc_append_right _ _ (by
      by_cases hm : '?' ∈ u
      · exact .inl ⟨'?', hq2.2 hm, by decide⟩
      · rw [if_neg hm]; exact .inr ⟨'?', e, rfl, by decide⟩)]
    obtain ⟨n1, n2⟩ := splitNetloc_spec r2
    have hr : (splitNetloc r2).1 ++ (splitNetloc r2).2 = r2 := List.takeWhile_append_dropWhile
    have hp1 : '#' ∉ (splitNetloc r2).2 := fun h => hh2 (by rw [← hr]; simp [h])
    have hp2 : '?' ∈ (splitNetloc r2).2 ↔ '?' ∈ u := by
      rw [← hq2]
      constructor
      · intro h; rw [← hr]; simp [h]
      · intro h
        rw [← hr, List.mem_append] at h
        rcases h with h | h
        · exact absurd (n1 _ h) (by decide)
        · exact h
    obtain ⟨t1, t2, t3⟩ := tail _ hp1 hp2
    generalize splitNetloc r2 = nl at *
    obtain ⟨netloc, p⟩ := nl
    simp only at h t1 t2 t3 ⊢
    rw [t1] at h
    rw [t2]
    simp only at h ⊢
    rw [t3]
    split at h
    · cases h
    · next hb =>
      rw [if_neg hb]
      split at h
      · cases h
      · next ha =>
        rw [if_neg ha]
        cases h
        exact ⟨rfl, rfl⟩
  · rw [if_neg hn] at h ⊢
    obtain ⟨t1, t2, t3⟩ := tail _ hh hq
    simp only at h ⊢
    rw [t1] at h
    rw [t2]
    simp only at h ⊢
    rw [t3]
    split at h
    · cases h
    · next hb =>
      rw [if_neg hb]
      split at h
      · cases h
      · next ha =>
        rw [if_neg ha]
        cases h
        exact ⟨rfl, rfl⟩

/-- the query is what follows the first question mark -/
theorem urlsplit_query (U : Uni) (u : Str) (hu : '#' ∉ u) (s : Split) (h : urlsplit U u = .ok s) :
    s.query = Props.queryOf (cleanUrl u) := by
  have hq : ∀ p : Str, '#' ∉ p → (cutOr '#' p = (p, [])) := fun p hp => cutOr_not_mem _ _ hp
  have hcut : ∀ p, (cutOr '?' p).2 = Props.queryOf p := by
    intro p
    rw [cutOr, Props.queryOf]
    cases cut '?' p with
    | none => rfl
    | some r => rfl
  have hpre : ∀ a b : Str, '?' ∉ a → Props.queryOf (a ++ b) = Props.queryOf b := by
    intro a b ha
    rw [Props.queryOf, Props.queryOf]
    cases hb : cut '?' b with
    | none =>
      have hb' := (cut_eq_none_iff _ _).1 hb
      rw [(cut_eq_none_iff _ _).2 (by simp [ha, hb'])]
    | some r =>
      obtain ⟨x, y⟩ := r
      obtain ⟨rfl, hx⟩ := (cut_eq_some_iff _ _ _ _).1 hb
      rw [(cut_eq_some_iff '?' (a ++ (x ++ '?' :: y)) (a ++ x) y).2 ⟨by simp, by simp [ha, hx]⟩]
  rw [urlsplit] at h
  have hh : '#' ∉ (splitScheme (cleanUrl u)).2 := by
    rw [mem_splitScheme (by decide) (by decide), mem_cleanUrl (by decide)]; exact hu
  have hsch : Props.queryOf (cleanUrl u) = Props.queryOf (splitScheme (cleanUrl u)).2 := by
    rw [splitScheme]
    cases hc : cut ':' (cleanUrl u) with
    | none => rfl
    | some p =>
      obtain ⟨sc, rest⟩ := p
      obtain ⟨he, hp⟩ := (cut_eq_some_iff _ _ _ _).1 hc
      cases sc with
      | nil => rfl
      | cons a sc =>
        simp only
        split
        · next hall =>
          simp only [Bool.and_eq_true, List.all_eq_true] at hall
          have hn : '?' ∉ a :: sc ++ [':'] := by
            intro hm
            rcases List.mem_append.1 hm with hm | hm
            · exact absurd (hall.2 _ hm) (by decide)
            · revert hm; decide
          rw [he, show a :: sc ++ ':' :: rest = (a :: sc ++ [':']) ++ rest by simp, hpre _ _ hn]
        · rfl
  rw [hsch]
  generalize (splitScheme (cleanUrl u)) = sch at *
  obtain ⟨scheme, r⟩ := sch
  simp only at h hh ⊢
  by_cases hn : startsWith r t!"//" = true
  · obtain ⟨r2, rfl⟩ := (startsWith_iff _ _).1 hn
    rw [if_pos hn] at h
    have hd1 : List.drop 2 (t!"//" ++ r2) = r2 := rfl
    rw [hd1] at h
    obtain ⟨n1, n2⟩ := splitNetloc_spec r2
    have hr : (splitNetloc r2).1 ++ (splitNetloc r2).2 = r2 := List.takeWhile_append_dropWhile
    have hp1 : '#' ∉ (splitNetloc r2).2 := fun h => hh (by rw [← hr]; simp [h])
    have e1 : Props.queryOf (t!"//" ++ r2) = Props.queryOf (splitNetloc r2).2 := by
      rw [← hr, hpre _ _ (by decide), hpre _ _ (fun hm => absurd (n1 _ hm) (by decide)), hr]
    rw [e1]
    generalize splitNetloc r2 = nl at *
    obtain ⟨netloc, p⟩ := nl
    simp only at h hp1 ⊢
    rw [hq p hp1] at h
    simp only at h
    split at h
    · cases h
    · split at h
      · cases h
      · cases h; exact hcut p
  · rw [if_neg hn] at h
    simp only at h
    rw [hq r hh] at h
    simp only at h
    split at h
    · cases h
    · split at h
      · cases h
      · cases h; exact hcut r

theorem cleanUrl_query (u : Str) (h : '\t' ∉ u ∧ '\r' ∉ u ∧ '\n' ∉ u) : Props.queryOf (cleanUrl u) = Props.queryOf u := by
  have hf : ∀ l : Str, (∀ c ∈ l, c ∈ u) → l.filter (fun c => !(c == '\t' || c == '\r' || c == '\n')) = l := by
    intro l hl
    rw [List.filter_eq_self]
    intro a ha
    have := hl a ha
    have e1 : a ≠ '\t' := by rintro rfl; exact h.1 this
    have e2 : a ≠ '\r' := by rintro rfl; exact h.2.1 this
    have e3 : a ≠ '\n' := by rintro rfl; exact h.2.2 this
    simp [e1, e2, e3]
  rw [cleanUrl, hf _ (fun c hc => (List.dropWhile_sublist _).subset hc)]
  clear hf h
  induction u with
  | nil => rfl
  | cons a u ih =>
    rw [List.dropWhile_cons]
    split
    · next ha =>
      rw [ih]
      have hne : a ≠ '?' := by rintro rfl; revert ha; decide
      rw [Props.queryOf, Props.queryOf]
      cases hb : cut '?' u with
      | none => rw [(cut_eq_none_iff '?' (a :: u)).2 (by simp [(cut_eq_none_iff _ _).1 hb]; exact fun h => hne h.symm)]
      | some r =>
        obtain ⟨x, y⟩ := r
        obtain ⟨rfl, hx⟩ := (cut_eq_some_iff _ _ _ _).1 hb
        rw [(cut_eq_some_iff '?' (a :: (x ++ '?' :: y)) (a :: x) y).2 ⟨rfl, by simp [hx]; exact fun h => hne h.symm⟩]
    · rfl

/-- `urlparse` of a URL with arguments appended -/
theorem urlparse_append (U : Uni) (u e : Str) (hu : '#' ∉ u) (he : ∀ c ∈ e, 0x20 < c.toNat ∧ c ≠ '#' ∧ c ≠ ':')
    (y : Parsed) (h : urlparse U u = .ok y) :
    urlparse U (u ++ (if '?' ∈ u then '&' else '?') :: e) =
      .ok { y with query := if '?' ∈ u then y.query ++ '&' :: e else e } := by
  rw [urlparse] at h ⊢
  obtain ⟨s, h1, h2⟩ := bind_eq_ok.1 h
  rw [(urlsplit_append U u e hu he s h1).2, ok_bind]
  simp only [pure_eq_ok, Except.ok.injEq] at h2
  simp only [pure_eq_ok, ← h2]

theorem encoded_chars (l : List (Str × Str)) : ∀ c ∈ Percent.urlencode l, 0x20 < c.toNat ∧ c ≠ '#' ∧ c ≠ ':' := by
  intro c hc
  have h := Percent.urlencode_chars l c hc
  refine ⟨?_, ?_, ?_⟩
  · rcases h with h | rfl | rfl
    · simp only [Percent.isQuotedChar, Bool.or_eq_true, Bool.and_eq_true, decide_eq_true_eq, beq_iff_eq] at h
      omega
    · decide
    · decide
  · rintro rfl; revert h; decide
  · rintro rfl; revert h; decide

end Url

namespace Percent
open Py

theorem parseQsl_false (q : Str) : parseQsl false q = (parseQsl true q).filter fun p => p.2 ≠ [] := by
  rw [parseQsl, parseQsl]
  induction splitOn '&' q with
  | nil => rfl
  | cons f r ih =>
    rw [List.filterMap_cons, List.filterMap_cons, ih]
    by_cases hf : f = []
    · simp [parseField, hf]
    · cases hc : cut '=' f with
      | none => simp [parseField, hf, hc]
      | some p =>
        obtain ⟨n, v⟩ := p
        by_cases hv : v = []
        · subst hv
          have : unquotePlus ([] : Str) = [] := rfl
          simp [parseField, hf, hc, this]
        · have : unquotePlus v ≠ [] := by
            rw [unquotePlus]
            apply unquote_ne_nil
            simpa using hv
          simp [parseField, hf, hc, hv, this]

theorem urlencode_append (a b : List (Str × Str)) (ha : a ≠ []) (hb : b ≠ []) :
    urlencode (a ++ b) = urlencode a ++ '&' :: urlencode b := by
  induction a with
  | nil => exact absurd rfl ha
  | cons x r ih =>
    cases r with
    | nil =>
      cases b with
      | nil => exact absurd rfl hb
      | cons y t => simp only [urlencode, List.cons_append, List.nil_append, List.map_cons, join_cons_cons]; simp [join]
    | cons z r =>
      have := ih (by simp)
      simp only [urlencode, List.cons_append, List.map_cons, join_cons_cons] at this ⊢
      rw [this]; simp

theorem urlencode_eq_nil (l : List (Str × Str)) : urlencode l = [] ↔ l = [] := by
  constructor
  · intro h
    have := parseQsl_urlencode l
    rw [h] at this
    exact this.symm
  · rintro rfl; rfl

end Percent

namespace Urinorm
open Py Percent

theorem encoded_allowed (l : List (Str × Str)) : (urlencode l).all isAllowed = true := by
  rw [List.all_eq_true]
  intro c hc
  rcases urlencode_chars l c hc with h | rfl | rfl
  · have : ∀ n, n < 127 → isQuotedChar (Char.ofNat n) = true → isAllowed (Char.ofNat n) = true := by decide
    have hc' : c = Char.ofNat c.toNat := by simp
    rw [hc'] at h ⊢
    apply this _ _ h
    rw [← hc'] at h
    simp only [isQuotedChar, Bool.or_eq_true, Bool.and_eq_true, decide_eq_true_eq, beq_iff_eq] at h
    omega
  · decide
  · decide

/-- Normalising a URL with arguments appended appends them to the normal form. -/
theorem urinorm_append (U : Url.Uni) (u : Str) (args : List (Str × Str)) (hu : '#' ∉ u)
    (hargs : ∀ p ∈ args, p.2 ≠ []) (n : Str) (h : urinorm U u = .ok n)
    (hq : '?' ∈ n → ∃ p ∈ parseQsl true (Props.queryOf (Url.cleanUrl u)), p.2 ≠ []) :
    urinorm U (Oidutil.appendArgsSeq u args) = .ok (Oidutil.appendArgsSeq n args) := by
  by_cases ha : args = []
  · subst ha; exact h
  obtain ⟨s, netloc, path, h0, h1, h2, h3, h4, h5, h6, rfl⟩ := urinorm_ok U u n h
  obtain ⟨hf, happ⟩ := Url.urlsplit_append U u (urlencode args) hu (Url.encoded_chars args) s h0
  have hnb : args.filter (fun p => p.2 ≠ []) = args := by
    rw [List.filter_eq_self]; intro p hp; simpa using hargs p hp
  have hpq : parseQsl false (if '?' ∈ u then s.query ++ '&' :: urlencode args else urlencode args) =
      parseQsl false s.query ++ args := by
    split
    · rw [parseQsl_append, parseQsl_urlencode_noblank, hnb]
    · next hm =>
      have : s.query = [] := by
        rw [Url.urlsplit_query U u hu s h0, Props.queryOf, (cut_eq_none_iff _ _).2]
        rw [Url.mem_cleanUrl (by decide)]; exact hm
      rw [parseQsl_urlencode_noblank, hnb, this]; rfl
  obtain ⟨y, hy, -⟩ := normPath_spec s.path path ((Url.urlsplit_spec U u s h0).2.1 h2) h4
  rw [← Url.urlsplit_query U u hu s h0] at hq
  have hnorm := urinorm_of U (Oidutil.appendArgsSeq u args) { s with query := if '?' ∈ u then s.query ++ '&' :: urlencode args else urlencode args }
    netloc path (by rw [Oidutil.appendArgsSeq, if_neg ha]; exact happ) h1 h2 h3 h4 (encoded_allowed _) h6
  rw [hnorm]
  simp only at hq ⊢
  rw [hpq, Oidutil.appendArgsSeq, if_neg ha]
  rw [hy, urlunsplit_form _ _ _ _ _ h1] at hq
  rw [hy, urlunsplit_form _ _ _ _ _ h1, urlunsplit_form _ _ _ _ _ h1]
  have hun : unquote s.fragment = [] := by rw [hf]; rfl
  rw [hun, if_pos rfl, List.append_nil, List.append_nil]
  rw [hun, if_pos rfl, List.append_nil] at hq
  have hne : urlencode (parseQsl false s.query ++ args) ≠ [] := by
    rw [ne_eq, urlencode_eq_nil]; simp [ha]
  rw [if_neg hne]
  congr 1
  by_cases hp : parseQsl false s.query = []
  · have hz : urlencode (parseQsl false s.query) = [] := by rw [hp]; rfl
    rw [hz, if_pos rfl, List.append_nil] at hq
    rw [hz, if_pos rfl, List.append_nil]
    have hno : ¬ '?' ∈ Url.lower U s.scheme ++ t!"://" ++ netloc ++ '/' :: quote pathSafe y := by
      intro hm
      obtain ⟨p, hp1, hp2⟩ := hq hm
      have : p ∈ parseQsl false s.query := by rw [parseQsl_false, List.mem_filter]; exact ⟨hp1, by simpa using hp2⟩
      rw [hp] at this; cases this
    rw [if_neg hno, hp]; rfl
  · have hz : urlencode (parseQsl false s.query) ≠ [] := by rw [ne_eq, urlencode_eq_nil]; exact hp
    rw [if_neg hz, if_pos (by simp), urlencode_append _ _ hp ha]
    simp

end Urinorm

namespace TrustRoot
open Py Spec Percent

theorem covered_append {realm path more : Str} (h : PathCovered realm path)
    (hm : more.head? = some (if '?' ∈ path then '&' else '?')) : PathCovered realm (path ++ more) := by
  have hself : PathCovered path (path ++ more) := by
    refine .inr ⟨more, rfl, ?_⟩
    rw [hm]
    by_cases hq : '?' ∈ path <;> simp [hq]
  rcases h with rfl | ⟨rest, rfl, hr⟩
  · exact hself
  · cases rest with
    | nil => rw [List.append_nil] at hself ⊢; exact hself
    | cons c rest => exact .inr ⟨c :: rest ++ more, by simp, by simpa using hr⟩

/-- Where a URL with arguments appended points. -/
theorem locate_append (U : Url.Uni) (u : Str) (args : List (Str × Str)) (hu : '#' ∉ u)
    (hargs : ∀ p ∈ args, p.2 ≠ []) (hne : args ≠ []) (n : Str) (h : Urinorm.urinorm U u = .ok n) (hn : '#' ∉ n)
    (hq : '?' ∈ n → ∃ p ∈ parseQsl true (Props.queryOf (Url.cleanUrl u)), p.2 ≠ [])
    (R : Location) (hR : locate U u = some R) :
    ∃ more, locate U (Oidutil.appendArgsSeq u args) = some { R with path := R.path ++ more } ∧
      more.head? = some (if '?' ∈ R.path then '&' else '?') ∧ '#' ∉ more := by
  have h' := Urinorm.urinorm_append U u args hu hargs n h hq
  rw [locate, h] at hR
  simp only at hR
  rw [locate, h']
  simp only
  cases hs : Url.urlsplit U n with
  | error e => rw [hs] at hR; cases hR
  | ok s =>
    rw [hs] at hR
    simp only at hR
    obtain ⟨hf, happ⟩ := Url.urlsplit_append U n (urlencode args) hn (Url.encoded_chars args) s hs
    have hsp := Url.urlsplit_spec U n s hs
    rw [Oidutil.appendArgsSeq, if_neg hne, happ]
    simp only
    have hnohash : '#' ∉ urlencode args := urlencode_no_hash args
    have hnil : urlencode args ≠ [] := by rw [ne_eq, urlencode_eq_nil]; exact hne
    cases hh : Url.hostname U s.netloc with
    | none => rw [hh] at hR; simp at hR
    | some host =>
      cases hp : Url.port s.netloc with
      | error e => rw [hh, hp] at hR; simp at hR
      | ok port =>
        rw [hh, hp] at hR
        simp only [hf] at hR
        simp only [hf, Option.some.injEq] at hR ⊢
        subst hR
        simp only [Location.mk.injEq, true_and]
        have hP : '?' ∉ (if s.path = [] then ['/'] else s.path) := by
          split
          · decide
          · exact hsp.2.2.1
        generalize (if s.path = [] then ['/'] else s.path) = P at hP
        by_cases hqn : '?' ∈ n
        · simp only [if_pos hqn]
          by_cases hsq : s.query = []
          · refine ⟨'?' :: '&' :: urlencode args, by simp [hsq], ?_, ?_⟩
            · simp [hsq, hP]
            · simp [hnohash]
          · refine ⟨'&' :: urlencode args, by simp [hsq], ?_, ?_⟩
            · simp [hsq]
            · simp [hnohash]
        · have hsq : s.query = [] := by
            rw [Url.urlsplit_query U n hn s hs, Props.queryOf, (cut_eq_none_iff _ _).2]
            rw [Url.mem_cleanUrl (by decide)]; exact hqn
          simp only [if_neg hqn]
          refine ⟨'?' :: urlencode args, by simp [hsq, hnil], ?_, ?_⟩
          · simp [hsq, hP]
          · simp [hnohash]

end TrustRoot
