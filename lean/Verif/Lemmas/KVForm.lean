import Verif.Lemmas.Py
import Verif.Model.KVForm
/-! Helper lemmas for the key-value form. -/

namespace KVForm
open Py

theorem seqToKV_ok_cons {strict k v r out} (h : seqToKV strict ((k, v) :: r) = .ok out) :
    ∃ line rest, pairToLine strict k v = .ok line ∧ seqToKV strict r = .ok rest ∧
      out = line ++ rest := by
  rw [seqToKV] at h
  cases h1 : pairToLine strict k v with
  | error e => simp [h1, bind, Except.bind] at h
  | ok line =>
    cases h2 : seqToKV strict r with
    | error e => simp [h1, h2, bind, Except.bind] at h
    | ok rest =>
      simp [h1, h2, bind, Except.bind, pure, Except.pure] at h
      exact ⟨line, rest, rfl, rfl, h.symm⟩

theorem pairToLine_ok_iff (strict : Bool) (k v line : Str) :
    pairToLine strict k v = .ok line ↔
      line = k ++ ':' :: v ++ ['\n'] ∧ '\n' ∉ k ∧ ':' ∉ k ∧ '\n' ∉ v ∧
        (strict = true → strip k = k ∧ strip v = v) := by
  rw [pairToLine]
  by_cases h1 : '\n' ∈ k
  · simp [h1]
  by_cases h2 : ':' ∈ k
  · simp [h1, h2]
  by_cases h3 : '\n' ∈ v
  · simp [h1, h2, h3]
  cases strict
  · simp [h1, h2, h3, eq_comm]
  · by_cases h4 : strip k = k
    · by_cases h5 : strip v = v
      · simp [h1, h2, h3, h4, h5, eq_comm]
      · simp [h1, h2, h3, h4, h5]
    · simp [h1, h2, h4]

/-- the lines of the output of `seqToKV` are the `key:value` texts -/
theorem splitOn_seqToKV {strict seq out} (h : seqToKV strict seq = .ok out) :
    splitOn '\n' out = seq.map (fun p => p.1 ++ ':' :: p.2) ++ [[]] := by
  induction seq generalizing out with
  | nil => simp [seqToKV] at h; subst h; rfl
  | cons p r ih =>
    obtain ⟨k, v⟩ := p
    obtain ⟨line, rest, h1, h2, rfl⟩ := seqToKV_ok_cons h
    obtain ⟨rfl, hk, _, hv, _⟩ := (pairToLine_ok_iff ..).1 h1
    have : k ++ ':' :: v ++ ['\n'] ++ rest = (k ++ ':' :: v) ++ '\n' :: rest := by simp
    rw [this, splitOn_append _ _ _ (by simp [hk, hv]), ih h2]
    rfl

theorem seqToKV_ok_iff (strict : Bool) (seq : List (Str × Str)) :
    (∃ out, seqToKV strict seq = .ok out) ↔
      ∀ p ∈ seq, '\n' ∉ p.1 ∧ ':' ∉ p.1 ∧ '\n' ∉ p.2 ∧
        (strict = true → strip p.1 = p.1 ∧ strip p.2 = p.2) := by
  induction seq with
  | nil => simp [seqToKV]
  | cons p r ih =>
    obtain ⟨k, v⟩ := p
    constructor
    · rintro ⟨out, h⟩
      obtain ⟨line, rest, h1, h2, rfl⟩ := seqToKV_ok_cons h
      have := (pairToLine_ok_iff ..).1 h1
      intro p hp
      rcases List.mem_cons.1 hp with rfl | hp
      · exact this.2
      · exact ih.1 ⟨rest, h2⟩ p hp
    · intro h
      obtain ⟨rest, hr⟩ := ih.2 (fun p hp => h p (by simp [hp]))
      have := (pairToLine_ok_iff strict k v (k ++ ':' :: v ++ ['\n'])).2 ⟨rfl, h (k, v) (by simp)⟩
      exact ⟨_, by rw [seqToKV, this, hr]; rfl⟩

theorem seqToKV_error {strict seq e} (h : seqToKV strict seq = .error e) : e = .kvFormError := by
  induction seq with
  | nil => simp [seqToKV] at h
  | cons p r ih =>
    obtain ⟨k, v⟩ := p
    rw [seqToKV] at h
    cases h1 : pairToLine strict k v with
    | error e' =>
      simp [h1, bind, Except.bind] at h
      subst h
      simp only [pairToLine] at h1
      repeat' split at h1
      all_goals simp_all
    | ok line =>
      cases h2 : seqToKV strict r with
      | error e' => simp [h1, h2, bind, Except.bind] at h; subst h; exact ih h2
      | ok rest => simp [h1, h2, bind, Except.bind, pure, Except.pure] at h

/-- what the lenient parser reads from one line -/
def readLine (line : Str) : Option (Str × Str) :=
  if strip line = [] then none else (cut ':' line).map fun p => (strip p.1, strip p.2)

theorem parseLines_lenient (ls : List Str) :
    parseLines false ls = .ok (ls.filterMap readLine) := by
  induction ls with
  | nil => rfl
  | cons l r ih =>
    rw [parseLines, List.filterMap_cons]
    by_cases h : strip l = []
    · simp [h, readLine, ih]
    · cases hc : cut ':' l with
      | none => simp [h, readLine, ih, hc]
      | some p => simp [h, readLine, ih, hc, bind, Except.bind, pure, Except.pure]

theorem readLine_pair (k v : Str) (hk : ':' ∉ k) :
    readLine (k ++ ':' :: v) = some (strip k, strip v) := by
  have h : strip (k ++ ':' :: v) ≠ [] :=
    strip_ne_nil_of_mem _ ':' (by simp) (by decide)
  rw [readLine, if_neg h, cut_append _ _ _ hk]; rfl

theorem kvToSeq_seqToKV {strict seq out} (h : seqToKV strict seq = .ok out) :
    kvToSeq false out = .ok (seq.map fun p => (strip p.1, strip p.2)) := by
  have hs := splitOn_seqToKV h
  have hok := (seqToKV_ok_iff strict seq).1 ⟨out, h⟩
  have hl : dataLines false out = .ok (seq.map fun p => p.1 ++ ':' :: p.2) := by
    simp [dataLines, hs]
  rw [kvToSeq, hl]
  simp only [bind, Except.bind, parseLines_lenient, Except.ok.injEq]
  clear hs hl h
  induction seq with
  | nil => rfl
  | cons p r ih =>
    simp only [List.map_cons, List.filterMap_cons,
      readLine_pair p.1 p.2 (hok p (by simp)).2.1]
    rw [ih (fun q hq => hok q (by simp [hq]))]

theorem pairLe_total (a b : Str × Str) : pairLe a b = true ∨ pairLe b a = true := by
  unfold pairLe
  by_cases h : a.1 = b.1
  · simpa [h] using strLe_total a.2 b.2
  · simpa [h, Ne.symm h] using strLe_total a.1 b.1

/-- lenient kvToSeq never fails -/
theorem kvToSeq_lenient (s : Str) : ∃ l, kvToSeq false s = .ok l := by
  have : ∃ l, dataLines false s = .ok l := by
    simp only [dataLines]; split <;> simp
  obtain ⟨l, hl⟩ := this
  exact ⟨l.filterMap readLine, by simp [kvToSeq, hl, parseLines_lenient, bind, Except.bind]⟩

/-- texts produced by the lenient parser are already stripped and free of separators -/
theorem kvToSeq_clean {s : Str} {l} (h : kvToSeq false s = .ok l) :
    ∀ p ∈ l, '\n' ∉ p.1 ∧ ':' ∉ p.1 ∧ '\n' ∉ p.2 ∧ strip p.1 = p.1 ∧ strip p.2 = p.2 := by
  have hd : ∃ ls, dataLines false s = .ok ls ∧ ∀ x ∈ ls, '\n' ∉ x := by
    simp only [dataLines]; split
    · exact ⟨_, rfl, fun x hx => splitOn_pieces '\n' s x ((List.dropLast_subset _) hx)⟩
    · exact ⟨_, rfl, splitOn_pieces '\n' s⟩
  obtain ⟨ls, hls, hnl⟩ := hd
  simp [kvToSeq, hls, parseLines_lenient, bind, Except.bind] at h
  subst h
  intro p hp
  obtain ⟨line, hline, hr⟩ := List.mem_filterMap.1 hp
  rw [readLine] at hr
  split at hr
  · cases hr
  · cases hc : cut ':' line with
    | none => simp [hc] at hr
    | some q =>
      obtain ⟨k, v⟩ := q
      simp [hc] at hr
      subst hr
      obtain ⟨rfl, hk⟩ := (cut_eq_some_iff ..).1 hc
      have := hnl _ hline
      simp at this
      exact ⟨fun h => this.1 (strip_subset k _ h), fun h => hk (strip_subset k _ h),
        fun h => this.2 (strip_subset v _ h), strip_idem k, strip_idem v⟩

theorem parseLines_error {strict ls e} (h : parseLines strict ls = .error e) : e = .kvFormError := by
  induction ls with
  | nil => simp [parseLines] at h
  | cons l r ih =>
    rw [parseLines] at h
    split at h
    · exact ih h
    · split at h
      · split at h
        · simp at h; exact h.symm
        · rcases bind_eq_error.1 h with h | ⟨_, _, h⟩
          · exact ih h
          · simp at h
      · split at h
        · simp at h; exact h.symm
        · exact ih h

theorem kvToSeq_error {strict s e} (h : kvToSeq strict s = .error e) : e = .kvFormError := by
  rw [kvToSeq] at h
  rcases bind_eq_error.1 h with h | ⟨_, _, h⟩
  · rw [dataLines] at h
    split at h
    · simp at h
    · split at h <;> simp at h
      exact h.symm
  · exact parseLines_error h

end KVForm
