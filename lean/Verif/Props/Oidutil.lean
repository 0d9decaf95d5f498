import Verif.Model.Oidutil
import Verif.Lemmas.Percent
/-! # Properties of query encoding: C06 -/

namespace Props
open Py Percent Oidutil

/-- Specification: the query of a URL without fragment is what follows its first `?`. -/
def queryOf (url : Str) : Str := match cut '?' url with | some p => p.2 | none => []

/-- C06: parsing the form encoding of any list of pairs gives the same list (blank values kept). -/
theorem c06_urlencode_round_trip (args : List (Str × Str)) : parseQsl true (urlencode args) = args :=
  parseQsl_urlencode args

/-- C06: with blank values dropped (the `parse_qsl` default) exactly the pairs with empty value
    are lost. -/
theorem c06_urlencode_noblank (args : List (Str × Str)) :
    parseQsl false (urlencode args) = args.filter fun p => p.2 ≠ [] :=
  parseQsl_urlencode_noblank args

/-- C06: the encoding cannot break out of the query: it consists of letters, digits and
    `_ . - ~ % + = &` only. -/
theorem c06_no_injection (args : List (Str × Str)) :
    ∀ c ∈ urlencode args, isQuotedChar c = true ∨ c = '=' ∨ c = '&' := by
  have hj : ∀ (l : List Str) (P : Char → Prop), P '&' → (∀ x ∈ l, ∀ c ∈ x, P c) →
      ∀ c ∈ join ['&'] l, P c := by
    intro l P hP
    induction l with
    | nil => intro _ c hc; simp [join] at hc
    | cons x r ih =>
      intro h c hc
      cases r with
      | nil => exact h x (by simp) c hc
      | cons y r =>
        rw [join_cons_cons] at hc
        simp only [List.mem_append, List.mem_singleton] at hc
        rcases hc with (hc | rfl) | hc
        · exact h x (by simp) c hc
        · exact hP
        · exact ih (fun z hz => h z (by simp [hz])) c hc
  apply hj
  · simp
  · intro x hx c hc
    obtain ⟨p, _, rfl⟩ := List.mem_map.1 hx
    simp only [List.mem_append, List.mem_cons] at hc
    rcases hc with hc | rfl | hc
    · exact .inl (quotePlus_chars _ c hc)
    · simp
    · exact .inl (quotePlus_chars _ c hc)

/-- C06: for every URL without fragment and every sequence of arguments, the arguments read from
    `appendArgs(url, args)` are the URL's own followed by `args`, in order. -/
theorem c06_appendArgs_seq (url : Str) (args : List (Str × Str)) (_hf : '#' ∉ url) :
    '#' ∉ appendArgsSeq url args ∧
    parseQsl true (queryOf (appendArgsSeq url args)) = parseQsl true (queryOf url) ++ args := by
  constructor
  · simp only [appendArgsSeq]
    split
    · exact _hf
    · simp only [List.mem_append, List.mem_cons, not_or]
      refine ⟨_hf, by split <;> decide, fun h => ?_⟩
      rcases c06_no_injection args _ h with h | h | h
      · exact absurd h (by decide)
      · exact absurd h (by decide)
      · exact absurd h (by decide)
  · simp only [appendArgsSeq]
    split
    · next h => simp [h]
    · next h =>
      by_cases hq : '?' ∈ url
      · obtain ⟨p, hp⟩ : ∃ p, cut '?' url = some p := by
          cases hc : cut '?' url with
          | none => rw [cut_eq_none_iff] at hc; exact absurd hq hc
          | some p => exact ⟨p, rfl⟩
        obtain ⟨h1, h2⟩ := (cut_eq_some_iff _ _ p.1 p.2).1 hp
        have : cut '?' (url ++ '&' :: urlencode args) = some (p.1, p.2 ++ '&' :: urlencode args) := by
          rw [cut_eq_some_iff]; exact ⟨by rw [h1]; simp, h2⟩
        simp only [hq, ↓reduceIte, queryOf, this, hp]
        rw [parseQsl_append, parseQsl_urlencode]
      · simp only [hq, ↓reduceIte, queryOf, cut_append _ _ _ hq, (cut_eq_none_iff _ _).2 hq]
        rw [parseQsl_urlencode]; rfl

/-- C06: the same for a mapping; the arguments appear sorted by key. -/
theorem c06_appendArgs_dict (url : Str) (args : Dict Str Str) (hf : '#' ∉ url) :
    parseQsl true (queryOf (appendArgs url args)) =
      parseQsl true (queryOf url) ++ sortBy KVForm.pairLe args ∧
    (sortBy KVForm.pairLe args).Perm args :=
  ⟨(c06_appendArgs_seq url _ hf).2, perm_sortBy _ _⟩

/-- C06: everything before the query is untouched. -/
theorem c06_appendArgs_prefix (url : Str) (args : List (Str × Str)) :
    ∃ suffix, appendArgsSeq url args = url ++ suffix := by
  simp only [appendArgsSeq]
  split
  · exact ⟨[], by simp⟩
  · exact ⟨_, rfl⟩

/-- C06, URLs with a fragment: everything before the `#` stays as it is, so a reader of the URL sees its own
    arguments and none of the added ones; those are at the end of the fragment, behind a `?` or, when the
    URL already has one anywhere, behind a `&`. -/
theorem c06_fragment (a f : Str) (args : List (Str × Str)) (ha : '#' ∉ a) :
    ∃ f', cut '#' (appendArgsSeq (a ++ '#' :: f) args) = some (a, f') ∧
      (args = [] → f' = f) ∧
      (args ≠ [] → f' = f ++ (if '?' ∈ a ∨ '?' ∈ f then '&' else '?') :: urlencode args) := by
  simp only [appendArgsSeq]
  split
  · next h => exact ⟨f, cut_append _ _ _ ha, fun _ => rfl, fun h' => absurd h h'⟩
  · next h =>
    refine ⟨f ++ (if '?' ∈ a ++ '#' :: f then '&' else '?') :: urlencode args, ?_, fun h' => absurd h' h, fun _ => ?_⟩
    · rw [List.append_assoc, List.cons_append]; exact cut_append _ _ _ ha
    · have : '?' ∈ a ++ '#' :: f ↔ '?' ∈ a ∨ '?' ∈ f := by simp
      simp only [this]

example : cut '#' (appendArgsSeq t!"http://a/?p=q#x" [(t!"k", t!"v")]) = some (t!"http://a/?p=q", t!"x&k=v") := by decide

/-- With a fragment the property is false: the arguments end up inside the fragment.
    (`http://a/#x` has the appended text after the `#`.) -/
theorem c06_fragment_swallows_args :
    appendArgsSeq t!"http://a/#x" [(t!"k", t!"v")] = t!"http://a/#x?k=v" := by decide

example : appendArgsSeq t!"http://a/?p=q&r" [(t!"k&", t!"v 1"), (t!"k&", t!"é")] =
    t!"http://a/?p=q&r&k%26=v+1&k%26=%C3%A9" := by decide
example : parseQsl true t!"p=q&r&k%26=v+1&k%26=%C3%A9" =
    [(t!"p", t!"q"), (t!"r", t!""), (t!"k&", t!"v 1"), (t!"k&", t!"é")] := by decide

end Props
