import Verif.Spec.Filters
import Verif.Lemmas.Discover
/-! # Lemmas about filters -/

namespace Props
open Py Xml Discover Filters Spec

variable {α : Type}

mutual
/-- the stages of a filter object -/
def flat : Filter α → List (Stage α)
  | .custom f => [.whole f]
  | .transform fs => [.first fs]
  | .compound l => flatAll l
def flatAll : List (Filter α) → List (Stage α)
  | [] => []
  | f :: rest => flat f ++ flatAll rest
end

/-- how many stages are lists of functions -/
def firsts : List (Stage α) → Nat
  | [] => 0
  | .whole _ :: rest => firsts rest
  | .first _ :: rest => firsts rest + 1

theorem firsts_append (a b : List (Stage α)) : firsts (a ++ b) = firsts a + firsts b := by
  induction a with
  | nil => simp [firsts]
  | cons s a ih => cases s <;> simp [firsts, ih] <;> omega

mutual
theorem shuffles_flat : ∀ f : Filter α, f.shuffles = firsts (flat f)
  | .custom f => by simp [Filter.shuffles, flat, firsts]
  | .transform fs => by simp [Filter.shuffles, flat, firsts]
  | .compound l => by simpa [Filter.shuffles, flat] using shuffles_flatAll l
theorem shuffles_flatAll : ∀ l : List (Filter α), shufflesAll l = firsts (flatAll l)
  | [] => by simp [shufflesAll, flatAll, firsts]
  | f :: rest => by simp [shufflesAll, flatAll, firsts_append, shuffles_flat f, shuffles_flatAll rest]
end

theorem runStages_append (whole : Custom α → Except PyErr (List α)) (run : Nat → List (Transform α) → Except PyErr (List α))
    (a b : List (Stage α)) (i : Nat) :
    runStages whole run i (a ++ b) = (do
      let x ← runStages whole run i a
      let y ← runStages whole run (i + firsts a) b
      return x ++ y) := by
  induction a generalizing i with
  | nil =>
    simp only [List.nil_append, runStages, firsts, Nat.add_zero, ok_bind]
    cases runStages whole run i b <;> rfl
  | cons s a ih =>
    cases s with
    | whole f =>
      simp only [List.cons_append, runStages, firsts, ih]
      cases whole f <;> simp only [ok_bind, error_bind]
      cases runStages whole run i a <;> simp only [ok_bind, error_bind, pure_eq_ok]
      cases runStages whole run (i + firsts a) b <;> simp [ok_bind, error_bind, pure_eq_ok]
    | first fs =>
      simp only [List.cons_append, runStages, firsts, ih]
      have : i + 1 + firsts a = i + (firsts a + 1) := by omega
      rw [this]
      cases run i fs <;> simp only [ok_bind, error_bind]
      cases runStages whole run (i + 1) a <;> simp only [ok_bind, error_bind, pure_eq_ok]
      cases runStages whole run (i + (firsts a + 1)) b <;> simp [ok_bind, error_bind, pure_eq_ok]

mutual
theorem get_flat (X : ExtraDigits) (shuffle : Nat → List Elem → List Elem) (url : Str) (s : Elem) : ∀ (f : Filter α) (i : Nat),
    f.get X shuffle url s i = runStages (fun c => c url s) (fun j fs => transformEndpoints X (shuffle j) fs url s) i (flat f)
  | .custom f, i => by
    rw [Filter.get, flat, runStages, runStages]
    cases f url s <;> simp [ok_bind, error_bind, pure_eq_ok]
  | .transform fs, i => by
    rw [Filter.get, flat, runStages, runStages]
    cases transformEndpoints X (shuffle i) fs url s <;> simp [ok_bind, error_bind, pure_eq_ok]
  | .compound l, i => by rw [Filter.get, flat]; exact getAll_flat X shuffle url s l i
theorem getAll_flat (X : ExtraDigits) (shuffle : Nat → List Elem → List Elem) (url : Str) (s : Elem) :
    ∀ (l : List (Filter α)) (i : Nat), getAll X shuffle url s l i =
      runStages (fun c => c url s) (fun j fs => transformEndpoints X (shuffle j) fs url s) i (flatAll l)
  | [], i => by rw [getAll, flatAll, runStages]
  | f :: rest, i => by
    rw [getAll, flatAll, runStages_append, get_flat X shuffle url s f i, getAll_flat X shuffle url s rest, shuffles_flat]
end

theorem flatAll_append (a b : List (Filter α)) : flatAll (a ++ b) = flatAll a ++ flatAll b := by
  induction a with
  | nil => rfl
  | cons f a ih => simp [flatAll, ih]

theorem flat_finish (fs : List (Filter α)) (ts : List (Transform α)) :
    flat (finish fs ts) = flatAll fs ++ (if ts = [] then [] else [.first ts]) := by
  have key : ∀ l : List (Filter α), flat (match l with | [f] => f | fs => Filter.compound fs) = flatAll l := by
    intro l
    split
    · simp [flatAll]
    · simp [flat]
  rw [finish]
  refine (key _).trans ?_
  cases ts with
  | nil => simp
  | cons t ts => simp [flatAll_append, flatAll, flat]

mutual
theorem classify_ok : ∀ (p : Part α) {fs : List (Filter α)} {ts : List (Transform α)}, classify p = .ok (fs, ts) →
    flatAll fs = stages p ∧ ts = (functionOf p).toList
  | .list l, fs, ts, h => by
    rw [classify] at h
    obtain ⟨⟨fs', ts'⟩, h1, h⟩ := bind_eq_ok.1 h
    simp only [pure_eq_ok, Except.ok.injEq, Prod.mk.injEq] at h
    obtain ⟨rfl, rfl⟩ := h
    obtain ⟨h2, h3⟩ := separate_ok l h1
    refine ⟨?_, rfl⟩
    simp only [flatAll, List.append_nil]
    rw [flat_finish, stages, h2, h3]
  | .object (some f) b c, fs, ts, h => by
    simp only [classify, Except.ok.injEq, Prod.mk.injEq] at h
    obtain ⟨rfl, rfl⟩ := h
    simp [flatAll, flat, stages, functionOf]
  | .object none (some t) c, fs, ts, h => by
    simp only [classify, Except.ok.injEq, Prod.mk.injEq] at h
    obtain ⟨rfl, rfl⟩ := h
    simp [flatAll, stages, functionOf]
  | .object none none (some t), fs, ts, h => by
    simp only [classify, Except.ok.injEq, Prod.mk.injEq] at h
    obtain ⟨rfl, rfl⟩ := h
    simp [flatAll, stages, functionOf]
  | .object none none none, fs, ts, h => by simp [classify] at h
theorem separate_ok : ∀ (l : List (Part α)) {fs : List (Filter α)} {ts : List (Transform α)}, separate l = .ok (fs, ts) →
    flatAll fs = stagesIn l ∧ ts = l.filterMap functionOf
  | [], fs, ts, h => by
    simp only [separate, Except.ok.injEq, Prod.mk.injEq] at h
    obtain ⟨rfl, rfl⟩ := h
    simp [flatAll, stagesIn]
  | p :: rest, fs, ts, h => by
    rw [separate] at h
    obtain ⟨⟨f1, t1⟩, h1, h⟩ := bind_eq_ok.1 h
    obtain ⟨⟨f2, t2⟩, h2, h⟩ := bind_eq_ok.1 h
    simp only [pure_eq_ok, Except.ok.injEq, Prod.mk.injEq] at h
    obtain ⟨rfl, rfl⟩ := h
    obtain ⟨k1, rfl⟩ := classify_ok p h1
    obtain ⟨k2, rfl⟩ := separate_ok rest h2
    refine ⟨by rw [flatAll_append, k1, k2, stagesIn], ?_⟩
    rw [List.filterMap_cons]
    cases functionOf p <;> rfl
end

mutual
theorem classify_error : ∀ (p : Part α) (e : PyErr), classify p = .error e ↔ e = .typeError ∧ Unfit p
  | .list l, e => by
    have := separate_error l e
    rw [classify]
    constructor
    · intro h
      rcases bind_eq_error.1 h with h | ⟨x, -, h⟩
      · obtain ⟨rfl, p, hp, hu⟩ := this.1 h
        exact ⟨rfl, .list hp hu⟩
      · simp at h
    · rintro ⟨rfl, h⟩
      cases h with
      | list hp hu => rw [this.2 ⟨rfl, _, hp, hu⟩]; rfl
  | .object (some f) b c, e => by
    simp only [classify, reduceCtorEq, false_iff, not_and]
    intro _ h; cases h
  | .object none (some t) c, e => by
    simp only [classify, reduceCtorEq, false_iff, not_and]
    intro _ h; cases h
  | .object none none (some t), e => by
    simp only [classify, reduceCtorEq, false_iff, not_and]
    intro _ h; cases h
  | .object none none none, e => by
    simp only [classify, Except.error.injEq]
    exact ⟨fun h => ⟨h.symm, .object⟩, fun h => h.1.symm⟩
theorem separate_error : ∀ (l : List (Part α)) (e : PyErr), separate l = .error e ↔ e = .typeError ∧ ∃ p ∈ l, Unfit p
  | [], e => by simp [separate]
  | p :: rest, e => by
    have h1 := classify_error p e
    have h2 := separate_error rest e
    rw [separate]
    constructor
    · intro h
      rcases bind_eq_error.1 h with h | ⟨x, -, h⟩
      · obtain ⟨rfl, hu⟩ := h1.1 h
        exact ⟨rfl, p, by simp, hu⟩
      · rcases bind_eq_error.1 h with h | ⟨y, -, h⟩
        · obtain ⟨rfl, q, hq, hu⟩ := h2.1 h
          exact ⟨rfl, q, by simp [hq], hu⟩
        · simp at h
    · rintro ⟨rfl, q, hq, hu⟩
      rcases List.mem_cons.1 hq with rfl | hq
      · rw [h1.2 ⟨rfl, hu⟩]; rfl
      · cases hc : classify p with
        | error e' =>
          have := (classify_error p e').1 hc
          rw [this.1]; rfl
        | ok x => rw [ok_bind, h2.2 ⟨rfl, q, hq, hu⟩]; rfl
end

end Props
