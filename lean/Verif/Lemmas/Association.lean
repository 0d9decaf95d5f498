import Verif.Model.Association
import Verif.Lemmas.MessageAbs
import Verif.Lemmas.KVForm
import Verif.Lemmas.Base64
import Verif.Lemmas.Cryptutil
import Verif.Lemmas.Utf8
/-! Helper lemmas for associations. -/

namespace Py

theorem digitVal_digit (X : ExtraDigits) (c : Char) (h : isDigit c = true) :
    digitVal X c = some (c.toNat - 48) := by
  simp only [isDigit, Bool.and_eq_true, decide_eq_true_eq] at h
  rw [digitVal, if_pos h]

theorem intDigits_digits (X : ExtraDigits) (s : Str) (hs : ∀ c ∈ s, isDigit c = true) (acc : Nat)
    (sep : Bool) (hne : s ≠ [] ∨ sep = false) :
    intDigits X acc sep s = some (s.foldl (fun a c => a * 10 + (c.toNat - 48)) acc) := by
  induction s generalizing acc sep with
  | nil =>
    rcases hne with h | h
    · exact absurd rfl h
    · subst h; rfl
  | cons c r ih =>
    rw [intDigits, digitVal_digit X c (hs c (by simp))]
    simp only
    rw [ih (fun d hd => hs d (by simp [hd])) _ false (.inr rfl)]
    rfl

theorem strip_digits (s : Str) (h : ∀ c ∈ s, isSpace c = false) : strip s = s := by
  rw [strip, lstrip_of_head s (by
    intro c hc; exact h c (List.mem_of_mem_head? hc))]
  rcases List.eq_nil_or_concat s with rfl | ⟨r, c, rfl⟩
  · rfl
  · rw [List.concat_eq_append, rstrip_append_nonspace _ _ (h c (by simp))]

theorem digit_not_space (c : Char) (h : isDigit c = true) : isSpace c = false := by
  simp only [isDigit, Bool.and_eq_true, decide_eq_true_eq] at h
  have : ∀ n, n < 58 → 48 ≤ n → isSpace (Char.ofNat n) = false := by decide
  have := this c.toNat (by omega) h.1
  rwa [show Char.ofNat c.toNat = c from Char.ofNat_toNat c] at this

theorem parseInt_intToStr (X : ExtraDigits) (i : Int) : parseInt X (intToStr i) = .ok i := by
  cases i with
  | ofNat n =>
    obtain ⟨h1, h2, h3⟩ := natToStr_spec n
    rw [intToStr, parseInt, strip_digits _ (fun c hc => digit_not_space c (h2 c hc))]
    have hd := intDigits_digits X _ h2 0 true (.inl h1)
    rw [digitsVal] at h3
    rw [h3] at hd
    cases hs : natToStr n with
    | nil => exact absurd hs h1
    | cons c r =>
      have hc := h2 c (by simp [hs])
      rw [hs] at hd
      split
      · next e =>
        split at e
        · next e2 => simp at e2; rw [e2.1] at hc; simp [isDigit] at hc
        · next e2 => simp at e2; rw [e2.1] at hc; simp [isDigit] at hc
        · rw [hd] at e; simp at e; rw [← e]; rfl
      · next e =>
        split at e
        · next e2 => simp at e2; rw [e2.1] at hc; simp [isDigit] at hc
        · next e2 => simp at e2; rw [e2.1] at hc; simp [isDigit] at hc
        · rw [hd] at e; simp at e
  | negSucc n =>
    obtain ⟨h1, h2, h3⟩ := natToStr_spec (n + 1)
    rw [intToStr, parseInt, strip_digits]
    · simp only
      have hd := intDigits_digits X _ h2 0 true (.inl h1)
      rw [digitsVal] at h3
      rw [hd, h3]
      rfl
    · intro c hc
      rcases List.mem_cons.1 hc with rfl | hc
      · decide
      · exact digit_not_space c (h2 c hc)

theorem intToStr_noSpace (i : Int) : ∀ c ∈ intToStr i, isSpace c = false := by
  cases i with
  | ofNat n => intro c hc; exact digit_not_space c ((natToStr_spec n).2.1 c hc)
  | negSucc n =>
    intro c hc
    rcases List.mem_cons.1 hc with rfl | hc
    · decide
    · exact digit_not_space c ((natToStr_spec _).2.1 c hc)

theorem parseInt_error (X : ExtraDigits) (s : Str) (e : PyErr) (h : parseInt X s = .error e) :
    e = .valueError := by
  rw [parseInt] at h
  split at h <;> simp at h
  exact h.symm

end Py

namespace Association
open Py Message Cryptutil

/-! ### Signing -/

theorem get?_append [DecidableEq α] (l m : Dict α β) (k : α) :
    Dict.get? (l ++ m) k = match Dict.get? l k with | some v => some v | none => Dict.get? m k := by
  induction l with
  | nil => rfl
  | cons p r ih =>
    obtain ⟨a, b⟩ := p
    rw [List.cons_append, Dict.get?_cons, Dict.get?_cons, ih]
    by_cases h : a = k <;> simp [h]

/-- lookup sees only the pairs with the key -/
theorem get?_filter [DecidableEq α] (l : Dict α β) (k : α) :
    Dict.get? (l.filter fun p => p.1 = k) k = Dict.get? l k := by
  induction l with
  | nil => rfl
  | cons p r ih =>
    obtain ⟨a, b⟩ := p
    rw [List.filter_cons, Dict.get?_cons]
    by_cases h : a = k
    · simp [h, Dict.get?_cons]
    · simp [h, ih]

theorem get?_ofPairs_filter [DecidableEq α] (l m : Dict α β) (k : α)
    (h : l.filter (fun p => p.1 = k) = m.filter (fun p => p.1 = k)) :
    Dict.get? (Dict.ofPairs l) k = Dict.get? (Dict.ofPairs m) k := by
  rw [Dict.ofPairs, Dict.ofPairs, Dict.get?_update, Dict.get?_update]
  have : Dict.get? l.reverse k = Dict.get? m.reverse k := by
    rw [← get?_filter l.reverse, ← get?_filter m.reverse, List.filter_reverse, List.filter_reverse, h]
  rw [this]

/-- setting one protocol argument changes what is sent under its own key only -/
theorem toPostArgs_set (m m' : Msg) (n : NsKey) (k v key : Str) (hns : m'.namespaces = m.namespaces)
    (hargs : m'.args = m.args.set (n, k) v) (hk : m.keyOf n k ≠ some key) :
    m'.toPostArgs.get? key = m.toPostArgs.get? key := by
  rw [toPostArgs_eq, toPostArgs_eq]
  apply get?_ofPairs_filter
  rw [hns, List.filter_append, List.filter_append]
  congr 1
  have hk2 : ∀ n k, m'.keyOf n k = m.keyOf n k := by intro n k; simp [Msg.keyOf, hns]
  simp only [argPairs, hargs, hk2]
  generalize m.args = l
  have hone : ∀ v : Str, (List.filterMap (fun p : (NsKey × Str) × Str =>
      (m.keyOf p.1.1 p.1.2).map fun k => (k, p.2)) [((n, k), v)]).filter (fun p => p.1 = key) = [] := by
    intro v
    cases hh : m.keyOf n k with
    | none => simp [hh]
    | some k2 =>
      have : k2 ≠ key := by rintro rfl; exact hk hh
      simp [hh, this]
  induction l with
  | nil => simpa [Dict.set] using hone v
  | cons p r ih =>
    obtain ⟨a, b⟩ := p
    rw [Dict.set]
    split
    · next e =>
      subst e
      rw [show ((n, k), v) :: r = [((n, k), v)] ++ r from rfl, show ((n, k), b) :: r = [((n, k), b)] ++ r from rfl,
        List.filterMap_append, List.filterMap_append, List.filter_append, List.filter_append, hone, hone]
    · next e =>
      rw [show (a, b) :: r = [(a, b)] ++ r from rfl,
        show (a, b) :: Dict.set r (n, k) v = [(a, b)] ++ Dict.set r (n, k) v from rfl,
        List.filterMap_append, List.filterMap_append, List.filter_append, List.filter_append, ih]

/-- setting an argument in the OpenID namespace -/
theorem setArg_openid (m : Msg) (hm : MInv m) (k v : Str) (m' : Msg)
    (h : m.setArg .openid k v = .ok m') :
    ∃ oid, m.getOpenIDNamespace = some oid ∧ m'.namespaces = m.namespaces ∧
      m'.args = m.args.set (.uri oid, k) v ∧ MInv m' ∧
      m.keyOf (.uri oid) k = some (t!"openid." ++ k) := by
  cases ho : m.getOpenIDNamespace with
  | none =>
    rw [setArg_error m .openid k v .undefinedOpenIDNamespace (by simp [Msg.fixNS, ho])] at h
    simp at h
  | some oid =>
    have hb := (hm.ns.bij .null oid).1 ho
    obtain ⟨m2, e1, e2, e3, -, -, -, e7⟩ := setArg_ok m hm .openid k v (.uri oid) (by simp [Msg.fixNS, ho])
    rw [e1] at h; simp at h; subst h
    exact ⟨oid, rfl, e7 oid rfl (by simp [hb]), e2, e3, by simp [Msg.keyOf, NamespaceMap.getAlias, hb]⟩

/-- the steps of a successful `signMessage` -/
theorem signMessage_ok (H : Mac) (a : Assoc) (m m3 : Msg) (hm : MInv m) (h : a.signMessage H m = .ok m3) :
    ∃ oid m1 m2 sig, m.getOpenIDNamespace = some oid ∧ a.otherHandle (m.args.get? (.uri oid, t!"assoc_handle")) = false ∧
      m.args.get? (.uri oid, t!"sig") = none ∧ m.args.get? (.uri oid, t!"signed") = none ∧
      m.setArg .openid t!"assoc_handle" a.handle = .ok m1 ∧
      m1.setArg .openid t!"signed" (signedList m1) = .ok m2 ∧
      a.getMessageSignature H m2 = .ok sig ∧
      m2.setArg .openid t!"sig" sig = .ok m3 := by
  rw [Assoc.signMessage] at h
  obtain ⟨b1, h1, h⟩ := bind_eq_ok.1 h
  obtain ⟨b2, h2, h⟩ := bind_eq_ok.1 h
  split at h
  · simp at h
  · next hb =>
    obtain ⟨ex, h3, h⟩ := bind_eq_ok.1 h
    split at h
    · simp at h
    · next hb2 =>
      obtain ⟨m1, h4, h⟩ := bind_eq_ok.1 h
      obtain ⟨m2, h5, h⟩ := bind_eq_ok.1 h
      obtain ⟨sig, h6, h⟩ := bind_eq_ok.1 h
      obtain ⟨oid, ho, -⟩ := setArg_openid m hm _ _ _ h4
      have hfix : m.fixNS .openid = .ok (.uri oid) := by simp [Msg.fixNS, ho]
      simp only [Msg.hasKey, Msg.getArg, hfix, ok_bind, pure_eq_ok, Except.ok.injEq] at h1 h2 h3
      refine ⟨oid, m1, m2, sig, ho, ?_, ?_, ?_, h4, h5, h6, h⟩
      · rw [h3]; simpa using hb2
      · subst h1; simp [Dict.has] at hb; exact hb.1
      · subst h2; simp [Dict.has] at hb; exact hb.2

theorem makePairs_ok (m : Msg) (ps : List (Str × Str)) (h : makePairs m = .ok ps) :
    ∃ s, m.getArg .openid t!"signed" = .ok (some s) ∧ s ≠ [] ∧ ps = pairsOf m.toPostArgs s := by
  rw [makePairs] at h
  obtain ⟨sg, h1, h⟩ := bind_eq_ok.1 h
  split at h
  · simp at h
  · simp at h
  · next s hs => simp at h; exact ⟨s, h1, hs, h.symm⟩

theorem makePairs_of (m : Msg) (s : Str) (h : m.getArg .openid t!"signed" = .ok (some s)) (hs : s ≠ []) :
    makePairs m = .ok (pairsOf m.toPostArgs s) := by
  rw [makePairs, h]
  cases s with
  | nil => exact absurd rfl hs
  | cons c r => rfl

theorem toBase64_inj (a b : Bytes) (h : toBase64 a = toBase64 b) : a = b := by
  simp only [toBase64, List.dropLast_concat] at h
  exact Base64.encode_inj a b h

theorem toBase64_ne_nil (a : Bytes) (h : a ≠ []) : toBase64 a ≠ [] := by
  intro he
  apply h
  exact toBase64_inj a [] (by rw [he]; rfl)

theorem getMessageSignature_ok (H : Mac) (a : Assoc) (m : Msg) (sig : Str)
    (h : a.getMessageSignature H m = .ok sig) :
    ∃ s kv, m.getArg .openid t!"signed" = .ok (some s) ∧ s ≠ [] ∧
      KVForm.seqToKV false (pairsOf m.toPostArgs s) = .ok kv ∧ a.assocType ∈ allAssociationTypes ∧
      sig = toBase64 (H a.assocType a.secret (Utf8.encode kv)) := by
  rw [Assoc.getMessageSignature] at h
  obtain ⟨ps, h1, h⟩ := bind_eq_ok.1 h
  obtain ⟨sb, h2, h'⟩ := bind_eq_ok.1 h
  obtain ⟨s, e1, e2, rfl⟩ := makePairs_ok m ps h1
  rw [Assoc.sign] at h2
  obtain ⟨kv, h3, h2⟩ := bind_eq_ok.1 h2
  split at h2
  · next hc =>
    simp at h2 h'
    exact ⟨s, kv, e1, e2, h3, by simpa using hc, by rw [← h', ← h2]⟩
  · simp at h2

/-- splitting a comma separated list gives the pieces of its elements -/
theorem splitOn_append_sep (c : Char) (x y : Str) : splitOn c (x ++ c :: y) = splitOn c x ++ splitOn c y := by
  induction x with
  | nil => simp [splitOn]
  | cons d r ih =>
    rw [List.cons_append]
    by_cases h : d = c
    · subst h
      simp only [splitOn, ↓reduceIte, ih, List.cons_append]
    · simp only [splitOn, if_neg h, ih]
      cases hs : splitOn c r with
      | nil => exact absurd hs (splitOn_ne_nil c r)
      | cons p q => simp

theorem mem_splitOn_join (c : Char) (l : List Str) (hl : l ≠ []) (f : Str) :
    f ∈ splitOn c (join [c] l) ↔ ∃ x ∈ l, f ∈ splitOn c x := by
  induction l with
  | nil => exact absurd rfl hl
  | cons x r ih =>
    cases r with
    | nil => simp [join]
    | cons y r =>
      rw [join_cons_cons, List.append_assoc, List.singleton_append, splitOn_append_sep, List.mem_append,
        ih (by simp)]
      simp

theorem mem_signedList (m : Msg) (f : Str) :
    f ∈ splitOn ',' (signedList m) ↔ f = t!"signed" ∨
      ∃ k ∈ Dict.keys m.toPostArgs, ∃ r, k = t!"openid." ++ r ∧ f ∈ splitOn ',' r := by
  rw [signedList, mem_splitOn_join]
  · simp only [mem_sortBy, List.mem_append, List.mem_map, List.mem_filter, List.mem_singleton]
    constructor
    · rintro ⟨x, (⟨k, ⟨hk, hs⟩, rfl⟩ | rfl), hf⟩
      · obtain ⟨r, rfl⟩ := (startsWith_iff _ _).1 hs
        exact .inr ⟨_, hk, r, rfl, by simpa using hf⟩
      · rw [splitOn_not_mem _ _ (by decide)] at hf
        exact .inl (by simpa using hf)
    · rintro (rfl | ⟨k, hk, r, rfl, hf⟩)
      · exact ⟨t!"signed", .inr rfl, by decide⟩
      · exact ⟨r, .inl ⟨_, ⟨hk, (startsWith_iff _ _).2 ⟨r, rfl⟩⟩, by simp⟩, hf⟩
  · intro h
    have := (perm_sortBy strLe (List.map (fun x => List.drop 7 x)
      (List.filter (fun x => startsWith x t!"openid.") (Dict.keys m.toPostArgs)) ++ [t!"signed"])).length_eq
    rw [h] at this
    simp at this

theorem signedList_ne_nil (m : Msg) : signedList m ≠ [] := by
  intro h
  have := (mem_signedList m t!"signed").2 (.inl rfl)
  rw [h] at this
  simp [splitOn] at this


theorem get?_ofPairs [DecidableEq α] (l : List (α × β)) (k : α) :
    Dict.get? (Dict.ofPairs l) k = Dict.get? l.reverse k := by
  rw [Dict.ofPairs, Dict.get?_update]
  cases Dict.get? l.reverse k <;> rfl

/-- what is sent after one argument was set is the new value or what was sent before -/
theorem ofPairs_set_mem (g : (NsKey × Str) × Str → Option (Str × Str)) (l : Dict (NsKey × Str) Str)
    (a : NsKey × Str) (v key w : Str) (hg : ∀ k v p, g (k, v) = some p → p.2 = v) (hg2 : ∀ k v v' p,
      g (k, v) = some p → ∃ q, g (k, v') = some q ∧ q.1 = p.1) (A : List (Str × Str))
    (h : Dict.get? (Dict.ofPairs (A ++ (Dict.set l a v).filterMap g)) key = some w) :
    w = v ∨ Dict.get? (Dict.ofPairs (A ++ l.filterMap g)) key = some w := by
  induction l generalizing A with
  | nil =>
    rw [Dict.set] at h
    cases hc : g (a, v) with
    | none => right; simpa [hc] using h
    | some p =>
      simp only [List.filterMap_cons, hc, List.filterMap_nil] at h
      rw [get?_ofPairs, List.reverse_append] at h
      simp only [List.reverse_singleton, List.singleton_append] at h
      obtain ⟨pk, pv⟩ := p
      rw [Dict.get?_cons] at h
      split at h
      · left; simp at h; rw [← h]; exact hg _ _ _ hc
      · right; rw [List.filterMap_nil, List.append_nil, get?_ofPairs]; exact h
  | cons p r ih =>
    obtain ⟨k, old⟩ := p
    rw [Dict.set] at h
    by_cases hk : k = a
    · rw [if_pos hk] at h
      subst hk
      cases hc : g (k, v) with
      | none =>
        right
        cases hc' : g (k, old) with
        | some q => obtain ⟨q', hq', -⟩ := hg2 _ _ v _ hc'; rw [hc] at hq'; simp at hq'
        | none => simp only [List.filterMap_cons, hc, hc'] at h ⊢; exact h
      | some p =>
        obtain ⟨q, hq, hqp⟩ := hg2 _ _ old _ hc
        simp only [List.filterMap_cons, hc, hq] at h ⊢
        rw [get?_ofPairs, List.reverse_append, List.reverse_cons, List.append_assoc, get?_append] at h
        rw [get?_ofPairs, List.reverse_append, List.reverse_cons, List.append_assoc, get?_append]
        obtain ⟨pk, pv⟩ := p
        obtain ⟨qk, qv⟩ := q
        simp only at hqp; subst hqp
        split at h
        · next hs => right; exact h
        · next hn =>
          simp only [List.singleton_append] at h
          rw [Dict.get?_cons] at h
          split at h
          · left; simp at h; rw [← h]; exact hg _ _ _ hc
          · next hne => right; simp only [List.singleton_append]; rw [Dict.get?_cons, if_neg hne]; exact h
    · rw [if_neg hk] at h
      simp only [List.filterMap_cons] at h ⊢
      split at h
      · next hc => exact ih A h
      · next q hc =>
        rw [show A ++ q :: List.filterMap g (Dict.set r a v) = (A ++ [q]) ++ List.filterMap g (Dict.set r a v) by simp] at h
        rw [show A ++ q :: List.filterMap g r = (A ++ [q]) ++ List.filterMap g r by simp]
        exact ih _ h

theorem toPostArgs_set_mem (m m' : Msg) (n : NsKey) (k v key w : Str) (hns : m'.namespaces = m.namespaces)
    (hargs : m'.args = m.args.set (n, k) v) (h : m'.toPostArgs.get? key = some w) :
    w = v ∨ m.toPostArgs.get? key = some w := by
  rw [toPostArgs_eq] at h ⊢
  have hk2 : ∀ n k, m'.keyOf n k = m.keyOf n k := by intro n k; simp [Msg.keyOf, hns]
  rw [argPairs, hargs, hns] at h
  simp only [hk2] at h
  refine ofPairs_set_mem _ m.args (n, k) v key w ?_ ?_ _ h
  · intro k v p hp
    obtain ⟨x, -, rfl⟩ := Option.map_eq_some_iff.1 hp
    rfl
  · intro k v v' p hp
    obtain ⟨x, hx, rfl⟩ := Option.map_eq_some_iff.1 hp
    exact ⟨(x, v'), by rw [Option.map_eq_some_iff]; exact ⟨x, hx, rfl⟩, rfl⟩

theorem mem_join (sep : Str) (l : List Str) (c : Char) (h : c ∈ join sep l) : c ∈ sep ∨ ∃ x ∈ l, c ∈ x := by
  induction l with
  | nil => simp [join] at h
  | cons x r ih =>
    cases r with
    | nil => simp [join] at h; exact .inr ⟨x, by simp, h⟩
    | cons y r =>
      rw [join_cons_cons] at h
      simp only [List.mem_append] at h
      rcases h with (h | h) | h
      · exact .inr ⟨x, by simp, h⟩
      · exact .inl h
      · rcases ih h with h | ⟨z, hz, h⟩
        · exact .inl h
        · exact .inr ⟨z, by simp at hz ⊢; exact .inr hz, h⟩

theorem mem_splitOn_sub (c : Char) (s x : Str) (hx : x ∈ splitOn c s) : ∀ d ∈ x, d ∈ s := by
  intro d hd
  have : ∀ l : List Str, x ∈ l → d ∈ join [c] l := by
    intro l
    induction l with
    | nil => simp
    | cons y r ih =>
      intro h
      cases r with
      | nil => simp at h; subst h; exact hd
      | cons z r =>
        rw [join_cons_cons]
        rcases List.mem_cons.1 h with rfl | h
        · simp [hd]
        · simp [ih h]
  rw [← join_splitOn c s]
  exact this _ hx

end Association
