import Verif.Lemmas.Accept
/-! # C48: content negotiation -/

namespace Props
open Py Accept Spec

variable {Q : Type} [DecidableEq Q] {F : Floats Q}

/-- Numbers as hundredths, written and read in tenths. -/
def digitText (n : Nat) : Str := if n = 10 then t!"1.0" else t!"0." ++ natToStr n
def hundredths : Floats Nat where
  lt a b := decide (a < b)
  zero := 0
  one := 100
  minus q := 100 - q
  parse s := ((List.range 11).find? fun n => digitText n = s).map (· * 10)
  fmt q := digitText (min ((q + 5) / 10) 10)

theorem hundredths_ordered : Ordered hundredths where
  irrefl a := by simp [hundredths]
  trans a b c h h' := by simp [hundredths] at *; omega
  total a b h := by simp [hundredths]; omega

theorem hundredths_writes : Writes hundredths (fun q => min ((q + 5) / 10) 10 * 10) where
  plain q := by
    have : ∀ n < 11, ∀ c ∈ digitText n, isSpace c = false ∧ c ≠ ',' ∧ c ≠ ';' := by decide
    exact this _ (by omega)
  reads q := by
    have : ∀ n < 11, hundredths.parse (digitText n) = some (n * 10) := by decide
    exact this _ (by omega)
  one := by decide

/-- C48: Reading an Accept header gives an entry for each of its elements that is of the form type/subtype, with the first
    of its parameters q that is a number, or one; other elements are left out.  The best come first; of equal ones the one
    with the greater text. -/
theorem c48_parse (hF : Ordered F) (header : Str) :
    Entries F header (parseAcceptHeader F header) ∧
    (parseAcceptHeader F header).Pairwise fun a b => F.lt a.2.2 b.2.2 = false ∧
      (a.2.2 = b.2.2 → strLe b.1 a.1 = true ∧ (a.1 = b.1 → strLe b.2.1 a.2.1 = true)) := by
  refine ⟨(entries_iff _ _).2 (perm_sortBy _ _), ?_⟩
  apply List.Pairwise.imp _ (pairwise_sortBy (entryGe F) (entryGe_total hF) (entryGe_trans hF) _)
  intro a b h
  exact (entryGe_iff hF a b).1 h

example : parseAcceptHeader hundredths t!"text/html;level=1; q=0.3, junk, */*;q=x;q=0.1,text/plain" =
    [(t!"text", t!"plain", 100), (t!"text", t!"html", 30), (t!"*", t!"*", 10)] := by decide

/-- C48: Matching fails exactly if an available type does not have exactly one slash. -/
theorem c48_match_error (A : List (Str × Str × Q)) (available : List Str) (e : PyErr) :
    matchTypes F A available = .error e ↔ e = .valueError ∧ ∃ t ∈ available, t.count '/' ≠ 1 :=
  matchTypes_error A available e

/-- C48: Matching available types with accepted ones returns what the most specific entry for each of them says, the best
    first, and nothing else. -/
theorem c48_match (hF : Ordered F) (A : List (Str × Str × Q)) (available : List Str) (out : List (Str × Q)) :
    matchTypes F A available = .ok out ↔ Acceptable F A available out := by
  constructor
  · intro h
    have hT : ∀ t ∈ available, ∃ main sub, IsType t main sub := by
      intro t ht
      rw [isType_iff]
      by_cases hc : t.count '/' = 1
      · exact hc
      · rw [(c48_match_error A available .valueError).2 ⟨rfl, t, ht, hc⟩] at h; exact absurd h (by simp)
    rw [matchTypes_ok hF A available hT] at h
    injection h with h
    subst h
    refine ⟨typeQuality (known F A), _, rfl, ?_, perm_sortBy _ _, ?_, ?_⟩
    · intro t ht
      obtain ⟨main, sub, hm⟩ := hT t ht
      exact ⟨main, sub, hm, by rw [typeQuality_eq _ hm]; exact isQuality hF A main sub⟩
    · apply List.Pairwise.imp _ (pairwise_sortBy _ (distLe_total hF) (distLe_trans hF) _)
      intro a b h
      simpa using h
    · intro m
      apply filter_sortBy
      intro x y hx hy
      simp only [decide_eq_true_eq] at hx hy
      rw [hx, hy, hF.irrefl]; rfl
  · rintro ⟨qual, good, hg, h1, -, h3, h4⟩
    have hT : ∀ t ∈ available, ∃ main sub, IsType t main sub := fun t ht => by
      obtain ⟨main, sub, hm, -⟩ := h1 t ht; exact ⟨main, sub, hm⟩
    have hq : ∀ t ∈ available, qual t = typeQuality (known F A) t := by
      intro t ht
      obtain ⟨main, sub, hm, hq⟩ := h1 t ht
      rw [typeQuality_eq _ hm]
      exact isQuality_unique hF hq (isQuality hF A main sub)
    have hgood : good = (available.filter fun t => typeQuality (known F A) t ≠ F.zero).map
        (fun t => (t, typeQuality (known F A) t)) := by
      rw [hg]
      have hf : (available.filter fun t => qual t ≠ F.zero) = available.filter fun t => typeQuality (known F A) t ≠ F.zero :=
        List.filter_congr fun t ht => by rw [hq t ht]
      rw [hf]
      apply List.map_congr_left
      intro t ht
      rw [hq t (List.mem_filter.1 ht).1]
    rw [matchTypes_ok hF A available hT, ← hgood]
    congr 1
    apply sorted_unique (fun p : Str × Q => F.minus p.2) (fun a b => F.lt b a = false)
      (fun a b x y => eq_of_not_lt hF y x) (fun a => hF.irrefl a)
    · apply List.Pairwise.imp _ (pairwise_sortBy _ (distLe_total hF) (distLe_trans hF) _)
      intro a b h
      simpa using h
    · exact h3
    · intro k
      rw [h4 k]
      apply filter_sortBy
      intro x y hx hy
      simp only [decide_eq_true_eq] at hx hy
      rw [hx, hy, hF.irrefl]; rfl

example : matchTypes hundredths [(t!"text", t!"plain", 20), (t!"text", t!"*", 50), (t!"text", t!"html", 0), (t!"*", t!"*", 10)]
    [t!"text/plain", t!"image/png", t!"text/html", t!"text/css", t!"text/xml"] =
    .ok [(t!"text/css", 50), (t!"text/xml", 50), (t!"text/plain", 20), (t!"image/png", 10)] := by decide

/-- C48: If the distance to one tells numbers apart, no type comes after one of lesser quality. -/
theorem c48_best_first (hF : Ordered F) (hm : ∀ a b, F.lt a b = true → F.lt (F.minus b) (F.minus a) = true)
    (A : List (Str × Str × Q)) (available : List Str) (out : List (Str × Q)) (h : matchTypes F A available = .ok out) :
    out.Pairwise fun a b => F.lt a.2 b.2 = false := by
  obtain ⟨_, _, _, _, _, h3, _⟩ := (c48_match hF A available out).1 h
  apply List.Pairwise.imp _ h3
  intro a b hab
  cases e : F.lt a.2 b.2 with
  | false => rfl
  | true => rw [hm _ _ e] at hab; exact absurd hab (by decide)

/-- C48: The acceptable types for a header are those that the entries of the header say, in whichever order these are
    taken. -/
theorem c48_acceptable (hF : Ordered F) (header : Str) (available : List Str) (types : List Str)
    (A : List (Str × Str × Q)) (hA : Entries F header A) :
    getAcceptable F header available = .ok types ↔ ∃ out, Acceptable F A available out ∧ types = out.map (·.1) := by
  have hperm : A.Perm (parseAcceptHeader F header) :=
    ((entries_iff _ _).1 hA).trans ((entries_iff _ _).1 (c48_parse hF header).1).symm
  have hn : ∀ out, Acceptable F A available out ↔ matchTypes F (parseAcceptHeader F header) available = .ok out := by
    intro out
    rw [c48_match hF]
    constructor
    · rintro ⟨qual, good, h0, h1, h2⟩
      exact ⟨qual, good, h0, fun t ht => (h1 t ht).imp fun m => Exists.imp fun s => And.imp id (isQuality_perm hperm), h2⟩
    · rintro ⟨qual, good, h0, h1, h2⟩
      exact ⟨qual, good, h0, fun t ht => (h1 t ht).imp fun m => Exists.imp fun s => And.imp id (isQuality_perm hperm.symm), h2⟩
  rw [getAcceptable]
  constructor
  · intro h
    obtain ⟨out, h1, h2⟩ := bind_eq_ok.1 h
    simp only [pure_eq_ok, Except.ok.injEq] at h2
    exact ⟨out, (hn out).2 h1, h2.symm⟩
  · rintro ⟨out, h1, rfl⟩
    rw [(hn out).1 h1]; rfl

/-- C48: Finding the acceptable types fails exactly if an available type does not have exactly one slash, whatever the
    header is. -/
theorem c48_acceptable_error (header : Str) (available : List Str) (e : PyErr) :
    getAcceptable F header available = .error e ↔ e = .valueError ∧ ∃ t ∈ available, t.count '/' ≠ 1 := by
  rw [← c48_match_error (F := F) (parseAcceptHeader F header), getAcceptable]
  cases matchTypes F (parseAcceptHeader F header) available <;> simp

example : getAcceptable hundredths t!"text/html; q=0.3, application/xhtml+xml; q=0.5, application/xrds+xml"
    [t!"text/html", t!"text/plain", t!"application/xrds+xml"] = .ok [t!"application/xrds+xml", t!"text/html"] := by decide
example : getAcceptable hundredths t!"text/html" [t!"text"] = .error .valueError := by decide

/-- C48: Making an Accept header fails exactly if a given factor is not above zero, or above one. -/
theorem c48_generate_error (es : List (Str × Option Q)) (e : PyErr) :
    generateAcceptHeader F es = .error e ↔
      e = .valueError ∧ ∃ x ∈ es, ∃ q, x.2 = some q ∧ (F.lt F.one q = true ∨ F.lt F.zero q = false) := by
  rw [← elements_error, generateAcceptHeader]
  cases es.mapM (element F) <;> simp

/-- C48: An Accept header that was made names the given types, each with its factor as a text unless that is `1.0`, in the
    order of these texts; equal factors in the order of the types. -/
theorem c48_generate (es : List (Str × Option Q)) (header : Str) (h : generateAcceptHeader F es = .ok header) :
    ∃ parts : List (Str × Str),
      parts.Perm (es.map fun e => ((e.2.map F.fmt).getD t!"1.0", e.1)) ∧
      (parts.Pairwise fun a b => strLe a.1 b.1 = true ∧ (a.1 = b.1 → strLe a.2 b.2 = true)) ∧
      header = join t!", " (parts.map fun p => if p.1 = t!"1.0" then p.2 else p.2 ++ t!"; q=" ++ p.1) := by
  rw [generateAcceptHeader] at h
  obtain ⟨ps, h1, h2⟩ := bind_eq_ok.1 h
  simp only [pure_eq_ok, Except.ok.injEq] at h2
  have hps : ps = es.map (texts F) := by
    rw [elements_ok es] at h1
    · exact (Except.ok.inj h1).symm
    · intro e he q hq
      have hno : ¬ es.mapM (element F) = .error .valueError := by rw [h1]; simp
      rw [elements_error] at hno
      refine ⟨?_, ?_⟩
      · cases hx : F.lt F.one q with
        | false => rfl
        | true => exact absurd ⟨rfl, e, he, q, hq, .inl hx⟩ hno
      · cases hx : F.lt F.zero q with
        | true => rfl
        | false => exact absurd ⟨rfl, e, he, q, hq, .inr hx⟩ hno
  refine ⟨sortBy pairLe ps, ?_, ?_, h2.symm⟩
  · refine (perm_sortBy _ _).trans ?_
    rw [hps]
    have : ∀ e : Str × Option Q, texts F e = ((e.2.map F.fmt).getD t!"1.0", e.1) := by
      rintro ⟨t, q⟩; cases q <;> rfl
    rw [List.map_congr_left (fun e _ => this e)]
  · apply List.Pairwise.imp _ (pairwise_sortBy pairLe pairLe_total pairLe_trans _)
    intro a b hab
    exact (pairLe_iff a b).1 hab

/-- C48: The header Yadis discovery sends, with whatever numbers three tenths, a half and one are. -/
theorem c48_yadis {a b c : Q} (ha : F.fmt a = t!"0.3") (hb : F.fmt b = t!"0.5") (hc : F.fmt c = t!"1.0")
    (hr : ∀ q, q = a ∨ q = b ∨ q = c → F.lt F.one q = false ∧ F.lt F.zero q = true) :
    generateAcceptHeader F (yadisElements a b c) =
      .ok t!"text/html; q=0.3, application/xhtml+xml; q=0.5, application/xrds+xml" := by
  rw [generateAcceptHeader, elements_ok]
  · simp only [yadisElements, List.map_cons, List.map_nil, texts, ha, hb, hc]
    decide
  · intro e he q hq
    simp only [yadisElements, List.mem_cons, List.not_mem_nil, or_false] at he
    rcases he with rfl | rfl | rfl <;> simp only [Option.some.injEq] at hq <;> subst hq
    · exact hr _ (.inl rfl)
    · exact hr _ (.inr (.inl rfl))
    · exact hr _ (.inr (.inr rfl))

example : generateAcceptHeader hundredths (yadisElements 30 50 100) =
    .ok t!"text/html; q=0.3, application/xhtml+xml; q=0.5, application/xrds+xml" := by decide

/-- C48: Reading an Accept header that was made gives the types that were given, with their factors as they are written,
    and one for those without. -/
theorem c48_round_trip (hF : Ordered F) (round : Q → Q) (hw : Writes F round) (es : List ((Str × Str) × Option Q)) (header : Str)
    (hes : ∀ e ∈ es, ListedType (e.1.1 ++ '/' :: e.1.2) e.1.1 e.1.2)
    (h : generateAcceptHeader F (es.map fun e => (e.1.1 ++ '/' :: e.1.2, e.2)) = .ok header) :
    (parseAcceptHeader F header).Perm (es.map fun e => (e.1.1, e.1.2, (e.2.map round).getD F.one)) := by
  obtain ⟨parts, hp, -, rfl⟩ := c48_generate _ _ h
  refine ((entries_iff _ _).1 (c48_parse hF _).1).trans ?_
  have hchunk : ∀ e ∈ es, ∀ p : Str × Str, p = ((e.2.map F.fmt).getD t!"1.0", e.1.1 ++ '/' :: e.1.2) →
      ',' ∉ (if p.1 = t!"1.0" then p.2 else p.2 ++ t!"; q=" ++ p.1) ∧
      parseChunk F (strip (if p.1 = t!"1.0" then p.2 else p.2 ++ t!"; q=" ++ p.1)) =
        some (e.1.1, e.1.2, (e.2.map round).getD F.one) := by
    rintro ⟨⟨main, sub⟩, q⟩ he p rfl
    have hl := hes _ he
    cases q with
    | none => exact ⟨by simpa using hl.2.2.2.1, by simpa using parseChunk_type hl⟩
    | some q =>
      simp only [Option.map_some, Option.getD_some]
      split
      · next h1 =>
        have : round q = F.one := by
          have a := hw.reads q; rw [h1, hw.one] at a; exact (Option.some.inj a).symm
        rw [this]
        exact ⟨hl.2.2.2.1, parseChunk_type hl⟩
      · refine ⟨?_, parseChunk_factor hl (hw.plain q) (hw.reads q)⟩
        intro hm
        rcases List.mem_append.1 hm with hm | hm
        · rcases List.mem_append.1 hm with hm | hm
          · exact hl.2.2.2.1 hm
          · revert hm; decide
        · exact (hw.plain q _ hm).2.1 rfl
  rw [List.map_map] at hp
  have hall : ∀ p ∈ parts, ∃ e ∈ es, p = ((e.2.map F.fmt).getD t!"1.0", e.1.1 ++ '/' :: e.1.2) := by
    intro p hpm
    obtain ⟨e, he, rfl⟩ := List.mem_map.1 (hp.mem_iff.1 hpm)
    exact ⟨e, he, rfl⟩
  by_cases h0 : parts = []
  · subst h0
    have := hp.symm.eq_nil
    rw [List.map_eq_nil_iff] at this
    subst this
    exact .refl _
  · rw [split_joined _ (by simpa using h0) (by
      intro x hx
      obtain ⟨p, hpm, rfl⟩ := List.mem_map.1 hx
      obtain ⟨e, he, hpe⟩ := hall p hpm
      exact (hchunk e he p hpe).1), List.map_map, List.filterMap_map]
    refine (hp.filterMap _).trans ?_
    rw [List.filterMap_map]
    have : ∀ (l : List ((Str × Str) × Option Q)), (∀ e ∈ l, e ∈ es) →
        l.filterMap ((parseChunk F ∘ (strip ∘ fun p : Str × Str => if p.1 = t!"1.0" then p.2 else p.2 ++ t!"; q=" ++ p.1)) ∘
          ((fun e : Str × Option Q => ((e.2.map F.fmt).getD t!"1.0", e.1)) ∘ fun e : (Str × Str) × Option Q => (e.1.1 ++ '/' :: e.1.2, e.2))) =
        l.map fun e => (e.1.1, e.1.2, (e.2.map round).getD F.one) := by
      intro l hl
      induction l with
      | nil => rfl
      | cons e r ih =>
        have hc := (hchunk e (hl e (by simp)) _ rfl).2
        rw [List.filterMap_cons_some (by simpa only [Function.comp] using hc), ih (fun x hx => hl x (List.mem_cons_of_mem _ hx))]
        rfl
    rw [this es (fun e he => he)]

example : Ordered hundredths ∧ Writes hundredths (fun q => min ((q + 5) / 10) 10 * 10) ∧
    ListedType t!"text/html" t!"text" t!"html" ∧
    generateAcceptHeader hundredths [(t!"text/html", some 30), (t!"text/plain", none)] =
      .ok t!"text/html; q=0.3, text/plain" := by
  refine ⟨hundredths_ordered, hundredths_writes, ⟨rfl, by decide⟩, by decide⟩

/-- C48, exception: a small factor is written as zero: then the type is not acceptable. -/
theorem c48_rounded_away : ∃ header, generateAcceptHeader hundredths [(t!"text/html", some 4)] = .ok header ∧
    header = t!"text/html; q=0.0" ∧ getAcceptable hundredths header [t!"text/html"] = .ok [] :=
  ⟨_, rfl, by decide, by decide⟩

/-- C48, exception: with a header in which no element is of the form type/subtype, all available types are acceptable, in
    the given order. -/
theorem c48_no_types (hF : Ordered F) (h01 : F.one ≠ F.zero) (header : Str) (h : '/' ∉ header) (available : List Str)
    (ha : ∀ t ∈ available, t.count '/' = 1) : getAcceptable F header available = .ok available := by
  have he : Entries F header [] := by
    rw [entries_iff, List.filterMap_eq_nil_iff.2]
    intro c hc
    obtain ⟨d, hd, rfl⟩ := List.mem_map.1 hc
    cases hp : parseChunk F (strip d) with
    | none => rfl
    | some x =>
      obtain ⟨m, s, q⟩ := x
      obtain ⟨mt, ps, h1, h2, h3, -⟩ := (parseChunk_iff _ _ _ _).1 hp
      have e1 : '/' ∈ mt := strip_subset mt _ (by rw [h3]; simp)
      have e2 : '/' ∈ strip d := by
        rw [← join_splitOn ';' (strip d), h1]
        cases ps with
        | nil => exact e1
        | cons a b => rw [join_cons_cons]; simp [e1]
      have e3 := strip_subset d _ e2
      exfalso; apply h
      rw [← join_splitOn ',' header]
      generalize splitOn ',' header = l at hd
      induction l with
      | nil => simp at hd
      | cons x r ih =>
        rcases List.mem_cons.1 hd with rfl | hd
        · cases r with
          | nil => exact e3
          | cons y r => rw [join_cons_cons]; simp [e3]
        · cases r with
          | nil => simp at hd
          | cons y r =>
            rw [join_cons_cons]
            exact List.mem_append_right _ (ih hd)
  rw [c48_acceptable hF header available available [] he]
  refine ⟨available.map fun t => (t, F.one), ⟨fun _ => F.one, _, rfl, ?_, ?_, ?_, ?_⟩, by simp [List.map_map, Function.comp_def]⟩
  · intro t ht
    obtain ⟨m, s, hT⟩ := (isType_iff t).2 (ha t ht)
    refine ⟨m, s, hT, ?_⟩
    unfold IsQuality
    exact ⟨.inl rfl, hF.irrefl _, by simp [anyhow]⟩
  · rw [List.filter_eq_self.2 (by simp [h01])]
  · rw [List.pairwise_map]
    exact List.pairwise_of_forall (fun _ _ => hF.irrefl _)
  · intro m
    have : (available.filter fun _ => decide (F.one ≠ F.zero)) = available := List.filter_eq_self.2 (by simp [h01])
    rw [this]

example : getAcceptable hundredths t!"junk" [t!"text/plain", t!"text/html"] = .ok [t!"text/plain", t!"text/html"] := by decide

/-- C48, exception: a parameter written `Q` or with a space before the `=` does not count: the type is taken for good. -/
theorem c48_other_parameter : parseAcceptHeader F t!"text/html; Q=0.5" = [(t!"text", t!"html", F.one)] ∧
    parseAcceptHeader F t!"text/html; q =0.5" = [(t!"text", t!"html", F.one)] := ⟨rfl, rfl⟩

/-- C48, exception: types are compared as they are written: an accepted `Text/HTML` does not make `text/html`
    acceptable. -/
theorem c48_case : getAcceptable hundredths t!"Text/HTML" [t!"text/html"] = .ok [] := by decide

end Props
