import Verif.Lemmas.KVForm
import Verif.Lemmas.Percent
/-! # Properties of the key-value form: C01, C02, C53 -/

namespace Props
open Py KVForm

/-- C01: whatever `seqToKV` accepts (in either mode) parses back to the same pairs in the same
    order, each key and value stripped of surrounding whitespace. -/
theorem c01_parse_encode (strict : Bool) (seq : List (Str × Str)) (out : Str)
    (h : seqToKV strict seq = .ok out) :
    kvToSeq false out = .ok (seq.map fun p => (strip p.1, strip p.2)) :=
  kvToSeq_seqToKV h

example : seqToKV false [(t!"a ", t!" x:y "), (t!"", t!"")] = .ok t!"a : x:y \n:\n" := by decide
example : kvToSeq false t!"a : x:y \n:\n" = .ok [(t!"a", t!"x:y"), (t!"", t!"")] := by decide

/-- C01: in strict mode the parsed result is the input itself. -/
theorem c01_parse_encode_strict (seq : List (Str × Str)) (out : Str)
    (h : seqToKV true seq = .ok out) : kvToSeq false out = .ok seq := by
  rw [kvToSeq_seqToKV h]
  have hok := (seqToKV_ok_iff true seq).1 ⟨out, h⟩
  congr 1
  conv => rhs; rw [← List.map_id seq]
  apply List.map_congr_left
  intro p hp
  have := (hok p hp).2.2.2 rfl
  simp [this.1, this.2]

example : seqToKV true [(t!"mode", t!"id_res"), (t!"x", t!"a b")] =
    .ok t!"mode:id_res\nx:a b\n" := by decide

/-- C01: the strict parser also accepts what the strict encoder produced, if no key is empty. -/
theorem c01_strict_strict (seq : List (Str × Str)) (out : Str)
    (h : seqToKV true seq = .ok out) (hne : ∀ p ∈ seq, p.1 ≠ []) :
    kvToSeq true out = .ok seq := by
  have hs := splitOn_seqToKV h
  have hok := (seqToKV_ok_iff true seq).1 ⟨out, h⟩
  have hl : dataLines true out = .ok (seq.map fun p => p.1 ++ ':' :: p.2) := by
    simp [dataLines, hs]
  rw [kvToSeq, hl]
  simp only [bind, Except.bind]
  clear hs hl h
  induction seq with
  | nil => rfl
  | cons p r ih =>
    obtain ⟨h1, h2, h3, h4⟩ := hok p (by simp)
    obtain ⟨h5, h6⟩ := h4 rfl
    have hn : strip (p.1 ++ ':' :: p.2) ≠ [] := strip_ne_nil_of_mem _ ':' (by simp) (by decide)
    rw [List.map_cons, parseLines, if_neg hn, cut_append _ _ _ h2]
    simp only [h5, h6]
    rw [ih (fun q hq => hne q (by simp [hq])) (fun q hq => hok q (by simp [hq]))]
    simp [hne p (by simp), bind, Except.bind, pure, Except.pure]

example : kvToSeq true t!"mode:id_res\nx:a b\n" =
    .ok [(t!"mode", t!"id_res"), (t!"x", t!"a b")] := by decide

/-- C01: once parsed, encode and parse are inverse: the pairs read from any text at all are
    accepted by the strict encoder and read back unchanged. -/
theorem c01_after_one_parse (data : Str) :
    ∃ seq out, kvToSeq false data = .ok seq ∧ seqToKV true seq = .ok out ∧
      kvToSeq false out = .ok seq := by
  obtain ⟨seq, hseq⟩ := kvToSeq_lenient data
  have hc := kvToSeq_clean hseq
  obtain ⟨out, hout⟩ := (seqToKV_ok_iff true seq).2 (fun p hp => by
    obtain ⟨a, b, c, d, e⟩ := hc p hp; exact ⟨a, b, c, fun _ => ⟨d, e⟩⟩)
  exact ⟨seq, out, hseq, hout, c01_parse_encode_strict seq out hout⟩

/-- C01: `kvToDict (dictToKV d)` is `d` as a mapping, for every dictionary `dictToKV` accepts whose
    keys and values carry no surrounding whitespace. -/
theorem c01_dict (d : Dict Str Str) (hd : Dict.WF d) (out : Str) (h : dictToKV d = .ok out)
    (hs : ∀ k v, Dict.get? d k = some v → strip k = k ∧ strip v = v) :
    ∃ d', kvToDict out = .ok d' ∧ Dict.WF d' ∧ ∀ k, Dict.get? d' k = Dict.get? d k := by
  have hp := kvToSeq_seqToKV h
  have hperm := perm_sortBy pairLe d
  have hmap : (sortBy pairLe d).map (fun p => (strip p.1, strip p.2)) = sortBy pairLe d := by
    conv => rhs; rw [← List.map_id (sortBy pairLe d)]
    apply List.map_congr_left
    intro p hp'
    obtain ⟨k, v⟩ := p
    have := hs k v (Dict.get?_of_mem d hd k v (hperm.mem_iff.1 hp'))
    simp [this.1, this.2]
  rw [hmap] at hp
  have hwf : Dict.WF (sortBy pairLe d) := (List.Perm.nodup_iff (hperm.map _)).2 hd
  refine ⟨sortBy pairLe d, ?_, hwf, fun k => Dict.get?_perm hwf hperm k⟩
  simp [kvToDict, hp, bind, Except.bind, pure, Except.pure, Dict.ofPairs_eq_self _ hwf]

example : dictToKV [(t!"b", t!"2"), (t!"a", t!"1")] = .ok t!"a:1\nb:2\n" := by decide

/-- C02: the encoder accepts exactly the unambiguous sequences ... -/
theorem c02_accepts_iff (strict : Bool) (seq : List (Str × Str)) :
    (∃ out, seqToKV strict seq = .ok out) ↔
      ∀ p ∈ seq, '\n' ∉ p.1 ∧ ':' ∉ p.1 ∧ '\n' ∉ p.2 ∧
        (strict = true → strip p.1 = p.1 ∧ strip p.2 = p.2) :=
  seqToKV_ok_iff strict seq

/-- C02: ... and raises `KVFormError` on all others. -/
theorem c02_rejects (strict : Bool) (seq : List (Str × Str)) (e : PyErr)
    (h : seqToKV strict seq = .error e) : e = .kvFormError ∧ e.isValueError = true := by
  have := seqToKV_error h; subst this; exact ⟨rfl, rfl⟩

example : seqToKV false [(t!"a:b", t!"c")] = .error .kvFormError := by decide
example : seqToKV true [(t!"a", t!" c")] = .error .kvFormError := by decide

/-- C02: two accepted sequences with the same encoding are equal, whatever the modes. -/
theorem c02_injective (s₁ s₂ : Bool) (a b : List (Str × Str)) (out : Str)
    (ha : seqToKV s₁ a = .ok out) (hb : seqToKV s₂ b = .ok out) : a = b := by
  have h := List.append_cancel_right ((splitOn_seqToKV ha).symm.trans (splitOn_seqToKV hb))
  have ca := (seqToKV_ok_iff s₁ a).1 ⟨out, ha⟩
  have cb := (seqToKV_ok_iff s₂ b).1 ⟨out, hb⟩
  clear ha hb
  induction a generalizing b with
  | nil => cases b <;> simp_all
  | cons p r ih =>
    cases b with
    | nil => simp at h
    | cons q r' =>
      simp only [List.map_cons, List.cons.injEq] at h
      have e1 := cut_append ':' p.1 p.2 (ca p (by simp)).2.1
      have e2 := cut_append ':' q.1 q.2 (cb q (by simp)).2.1
      rw [h.1, e2] at e1
      simp only [Option.some.injEq, Prod.mk.injEq] at e1
      rw [ih r' h.2 (fun x hx => ca x (by simp [hx])) (fun x hx => cb x (by simp [hx])),
        show p = q from Prod.ext e1.1.symm e1.2.symm]

/-- C02: the encoding of a sequence is the concatenation of its `key:value` lines. -/
theorem c02_format (strict : Bool) (seq : List (Str × Str)) (out : Str)
    (h : seqToKV strict seq = .ok out) :
    out = (seq.map fun p => p.1 ++ [':'] ++ p.2 ++ ['\n']).flatten := by
  induction seq generalizing out with
  | nil => simp [seqToKV] at h; simp [h]
  | cons p r ih =>
    obtain ⟨k, v⟩ := p
    obtain ⟨line, rest, h1, h2, rfl⟩ := seqToKV_ok_cons h
    obtain ⟨rfl, _⟩ := (pairToLine_ok_iff ..).1 h1
    rw [ih rest h2]; simp

/-! ## C53: what the parser reads -/

/-- the pair on one line: what stands before and after the first colon, stripped; none without a colon -/
def pairOnLine (line : Str) : Option (Str × Str) := (cut ':' line).map fun p => (strip p.1, strip p.2)

theorem readLine_eq (line : Str) : readLine line = pairOnLine line := by
  rw [readLine, pairOnLine]
  split
  · next h =>
    cases hc : cut ':' line with
    | none => rfl
    | some p =>
      have := (cut_eq_some_iff _ _ _ _).1 hc
      exact absurd h (strip_ne_nil_of_mem _ ':' (by rw [this.1]; simp) (by decide))
  · rfl

/-- C53: the lenient parser reads any text at all: exactly the lines with a colon, in order. -/
theorem c53_lenient (data : Str) :
    kvToSeq false data = .ok ((splitOn '\n' data).filterMap pairOnLine) := by
  have hp : (fun l => pairOnLine l) = readLine := by funext l; rw [readLine_eq]
  rw [kvToSeq, dataLines]
  split
  · next hl =>
    simp only [ok_bind, parseLines_lenient, Except.ok.injEq]
    have hne := splitOn_ne_nil '\n' data
    obtain ⟨h1, h2⟩ : ∃ h, (splitOn '\n' data).getLast h = [] := by
      rw [List.getLast?_eq_some_getLast hne] at hl
      simp at hl; exact ⟨hne, hl⟩
    conv => rhs; rw [← List.dropLast_concat_getLast hne, List.filterMap_append, h2]
    simp only [List.filterMap_cons, List.filterMap_nil, show pairOnLine [] = none from rfl, List.append_nil]
    exact congrArg (fun f => List.filterMap f _) hp.symm
  · simp only [Bool.false_eq_true, if_false, ok_bind, parseLines_lenient, Except.ok.injEq]
    exact congrArg (fun f => List.filterMap f _) hp.symm

/-- a line the strict parser accepts: blank, or `key:value` with a non-empty key and no padding -/
def StrictLine (line : Str) : Prop :=
  strip line = [] ∨ ∃ k v, line = k ++ ':' :: v ∧ ':' ∉ k ∧ k ≠ [] ∧ strip k = k ∧ strip v = v

theorem parseLines_strict (ls : List Str) (seq : List (Str × Str)) :
    parseLines true ls = .ok seq ↔ (∀ l ∈ ls, StrictLine l) ∧ seq = ls.filterMap pairOnLine := by
  induction ls generalizing seq with
  | nil => simp only [parseLines, Except.ok.injEq, List.filterMap_nil]; constructor <;> (intro h; simp_all)
  | cons l r ih =>
    rw [parseLines]
    by_cases hb : strip l = []
    · have hn : pairOnLine l = none := by rw [← readLine_eq, readLine, if_pos hb]
      rw [if_pos hb, ih, List.filterMap_cons, hn]
      constructor
      · rintro ⟨h1, h2⟩
        exact ⟨by intro x hx; rcases List.mem_cons.1 hx with rfl | hx; exact .inl hb; exact h1 x hx, h2⟩
      · rintro ⟨h1, h2⟩
        exact ⟨fun x hx => h1 x (by simp [hx]), h2⟩
    · rw [if_neg hb]
      cases hc : cut ':' l with
      | none =>
        simp only [if_true]
        constructor
        · intro h; simp at h
        · rintro ⟨h1, -⟩
          rcases h1 l (by simp) with h | ⟨k, v, rfl, hk, -⟩
          · exact absurd h hb
          · rw [cut_append _ _ _ hk] at hc; simp at hc
      | some p =>
        obtain ⟨k, v⟩ := p
        obtain ⟨hl, hk⟩ := (cut_eq_some_iff _ _ _ _).1 hc
        have hsl : StrictLine l ↔ (k ≠ [] ∧ strip k = k ∧ strip v = v) := by
          constructor
          · rintro (h | ⟨k', v', he, hk', h1, h2, h3⟩)
            · exact absurd h hb
            · rw [he, cut_append _ _ _ hk'] at hc
              simp at hc; obtain ⟨rfl, rfl⟩ := hc
              exact ⟨h1, h2, h3⟩
          · rintro ⟨h1, h2, h3⟩; exact .inr ⟨k, v, hl, hk, h1, h2, h3⟩
        have hpl : pairOnLine l = some (strip k, strip v) := by rw [pairOnLine, hc]; rfl
        simp only [Bool.true_and]
        by_cases hok : k ≠ [] ∧ strip k = k ∧ strip v = v
        · rw [if_neg (by simp [hok])]
          rw [List.filterMap_cons, hpl]
          constructor
          · intro h
            obtain ⟨rest, h1, h2⟩ := bind_eq_ok.1 h
            simp at h2
            obtain ⟨h3, h4⟩ := (ih rest).1 h1
            refine ⟨?_, by rw [← h2, ← h4]⟩
            intro x hx
            rcases List.mem_cons.1 hx with rfl | hx
            · exact hsl.2 hok
            · exact h3 x hx
          · rintro ⟨h1, h2⟩
            have := (ih _).2 ⟨fun x hx => h1 x (by simp [hx]), rfl⟩
            rw [this, h2]; rfl
        · rw [if_pos]
          · constructor
            · intro h; simp at h
            · rintro ⟨h1, -⟩; exact absurd (hsl.1 (h1 l (by simp))) hok
          · by_cases h1 : strip k = k
            · by_cases h2 : strip v = v
              · have : k = [] := by
                  by_cases h3 : k = []
                  · exact h3
                  · exact absurd ⟨h3, h1, h2⟩ hok
                subst this; simp [h1, h2]
              · simp [h2]
            · simp [h1]

/-- C53: the strict parser accepts exactly the texts made of whole lines, each blank or `key:value` with a
    non-empty key and no padding, and reads what the lenient one reads. -/
theorem c53_strict (data : Str) (seq : List (Str × Str)) :
    kvToSeq true data = .ok seq ↔
      (data = [] ∨ ∃ body, data = body ++ ['\n']) ∧ (∀ l ∈ splitOn '\n' data, StrictLine l) ∧
      kvToSeq false data = .ok seq := by
  have hend : (splitOn '\n' data).getLast? = some [] ↔ (data = [] ∨ ∃ body, data = body ++ ['\n']) := by
    constructor
    · intro h
      by_cases hd : data = []
      · exact .inl hd
      · right
        have hne := splitOn_ne_nil '\n' data
        rw [List.getLast?_eq_some_getLast hne] at h
        simp only [Option.some.injEq] at h
        have hj := join_splitOn '\n' data
        rw [← List.dropLast_concat_getLast hne, h] at hj
        cases hdl : (splitOn '\n' data).dropLast with
        | nil => rw [hdl] at hj; simp [join] at hj; exact absurd hj hd
        | cons a r =>
          rw [hdl] at hj
          have : ∀ (l : List Str), l ≠ [] → join ['\n'] (l ++ [[]]) = join ['\n'] l ++ ['\n'] := by
            intro l hl
            induction l with
            | nil => contradiction
            | cons x t ih =>
              cases t with
              | nil => simp [join]
              | cons y t => rw [List.cons_append, List.cons_append, join_cons_cons, ← List.cons_append, ih (by simp), join_cons_cons]; simp
          rw [this _ (by simp)] at hj
          exact ⟨_, hj.symm⟩
    · rintro (rfl | ⟨body, rfl⟩)
      · rfl
      · have : ∀ b : Str, splitOn '\n' (b ++ ['\n']) = splitOn '\n' b ++ [[]] := by
          intro b
          have := Percent.splitOn_append_sep '\n' b []
          simpa [splitOn] using this
        rw [this]; simp
  rw [c53_lenient]
  have hne := splitOn_ne_nil '\n' data
  rw [kvToSeq, dataLines]
  by_cases hl : (splitOn '\n' data).getLast? = some []
  · have hlast : (splitOn '\n' data).getLast hne = [] := by
      rw [List.getLast?_eq_some_getLast hne] at hl; simpa using hl
    simp only [hl, ok_bind, parseLines_strict, ← hend, true_and, Except.ok.injEq]
    have hall : (∀ l ∈ splitOn '\n' data, StrictLine l) ↔ ∀ l ∈ (splitOn '\n' data).dropLast, StrictLine l := by
      constructor
      · intro h l hl; exact h l (List.dropLast_subset _ hl)
      · intro h l hl
        rw [← List.dropLast_concat_getLast hne, hlast] at hl
        rcases List.mem_append.1 hl with hl | hl
        · exact h l hl
        · simp at hl; subst hl; exact .inl rfl
    have hfm : (splitOn '\n' data).filterMap pairOnLine = (splitOn '\n' data).dropLast.filterMap pairOnLine := by
      conv => lhs; rw [← List.dropLast_concat_getLast hne, List.filterMap_append, hlast]
      simp [show pairOnLine [] = none from rfl]
    rw [hall, hfm]
    exact and_congr_right fun _ => eq_comm
  · have hd : ¬ (data = [] ∨ ∃ body, data = body ++ ['\n']) := fun h => hl (hend.2 h)
    constructor
    · intro h
      split at h
      · next h' => exact absurd h' hl
      · simp at h
    · rintro ⟨h, -⟩; exact absurd h hd

/-- C53: everything else the strict parser refuses with `KVFormError`. -/
theorem c53_strict_errors (data : Str) (e : PyErr) (h : kvToSeq true data = .error e) : e = .kvFormError :=
  kvToSeq_error h

example : kvToSeq false t!"a:1\nnonsense\n b : 2 \n\n:x" =
    .ok [(t!"a", t!"1"), (t!"b", t!"2"), (t!"", t!"x")] := by decide
example : kvToSeq true t!"a:1\n\nb:2 3\n" = .ok [(t!"a", t!"1"), (t!"b", t!"2 3")] := by decide
example : kvToSeq true t!"a:1\n:2\n" = .error .kvFormError ∧ kvToSeq true t!"a:1" = .error .kvFormError ∧
    kvToSeq true t!"a: 1\n" = .error .kvFormError ∧ kvToSeq true t!"a\n" = .error .kvFormError := by decide

end Props
