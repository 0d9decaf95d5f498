import Verif.Props.Replay
import Verif.Props.SqlConc
import Verif.Props.MemConc
/-! # C38: replay against stores used by several completions at once -/

namespace Props
open Py Store Consumer Spec

theorem countP_count {α : Type} (l : List α) (f : α → Op × Outcome) (x : Op × Outcome) :
    (l.map f).count x = l.countP fun a => decide (f a = x) := by
  induction l with
  | nil => rfl
  | cons a l ih => rw [List.map_cons, List.count_cons, List.countP_cons, ih]; simp

/-- C38: an SQL store with any number of connections at once, any failures of the database and any isolation its rules
    allow, as long as the clock does not leave a nonce's window while a call with it is going on (see C81). -/
theorem c38_sql_connections (D : SqlStore.Driver) (c : Clock) (cfg : SqlConc.Config) (h : ∀ t, Spec.Prompt D c t cfg) :
    OnceEach (cfg.returned.map fun x => (x.1, x.2.2)) := by
  intro u t s
  rw [countP_count]
  refine Nat.le_trans (Nat.le_of_eq ?_) (c81_once D c cfg u t s (h t))
  rw [Spec.accepted]
  congr 1
  funext x
  simp [Prod.ext_iff]

/-- C38: the memory store with several threads, as long as no two calls with one nonce are going on at the same time,
    and the clock does not cross an end of a nonce's window while a call that minds is going on (see C83). -/
theorem c38_memory_threads (c : Clock) (cfg : MemConc.Config) (h : ∀ t, MemConc.Prompt c t cfg)
    (hs : ∀ u t s, cfg.returned.Pairwise fun x y => x.op = .useNonce u t s → y.op = .useNonce u t s → ¬ x.Overlaps y) :
    OnceEach (outcomes cfg) := by
  intro u t s
  refine Nat.le_trans (Nat.le_of_eq ?_) (c83_one_at_a_time c cfg u t s (h t) (hs u t s))
  rw [outcomes, countP_count, List.countP_reverse, List.countP_eq_length_filter]
  congr 2
  funext x
  rw [Bool.eq_iff_iff]
  rw [decide_eq_true_iff, decide_eq_true_iff, Prod.mk.injEq, MemConc.Returned.Accepts]

open SqlConc in
/-- nobody is using a nonce when the clock moves on -/
def calm0 (n : Nat) (cfg : Config) : Act' → Bool
  | .tick _ => (List.range n).all fun i => match cfg.clients i with
    | some ⟨.useNonce _ _ _, _, _⟩ => false
    | _ => true
  | _ => true

open SqlConc in
/-- in these schedules the clock moves on only while no nonce is being used -/
def quiet0 (D : SqlStore.Driver) (n : Nat) (cfg : Config) : List Act' → Bool
  | [] => true
  | a :: r => calm0 n cfg a && quiet0 D n (play D clock0 (fun _ _ => true) cfg a) r

open SqlConc in
theorem quiet0_play {D : SqlStore.Driver} {n : Nat} (t : Int) {acts : List Act'} {cfg : Config}
    (h : quiet0 D n cfg acts = true) :
    acts.foldl (playPrompt D clock0 t n) cfg = acts.foldl (play D clock0 fun _ _ => true) cfg := by
  induction acts generalizing cfg with
  | nil => rfl
  | cons a r ih =>
    rw [quiet0, Bool.and_eq_true] at h
    rw [List.foldl_cons, List.foldl_cons]
    have e : playPrompt D clock0 t n cfg a = play D clock0 (fun _ _ => true) cfg a := by
      cases a with
      | tick now =>
        rw [playPrompt, if_pos]
        rw [List.all_eq_true]
        intro i hi
        have := List.all_eq_true.1 h.1 i hi
        split
        · next hc => rw [hc] at this; cases this
        · rfl
      | _ => rfl
    rw [e]
    exact ih h.2

/-- three connections, as in the example of C81: the clock moves on only while no nonce is being used -/
example (o : Bool) (B : SqlStore.Backend) : ∃ cfg : SqlConc.Config, (∀ t, Spec.Prompt ⟨B, o⟩ clock0 t cfg) ∧
    (cfg.returned.reverse.map fun x => (x.1, x.2.2)) = [(.useNonce t!"http://op/" 5 t!"s", .ok (.bool true)),
      (.useNonce t!"http://op/" 5 t!"s", .ok (.bool false)), (.cleanupNonces, .ok (.count 1)),
      (.useNonce t!"http://op/" 5 t!"s", .ok (.bool false))] := by
  refine ⟨nonceSchedule.foldl (SqlConc.play ⟨B, o⟩ clock0 fun _ _ => true) SqlConc.Config.init, fun t => ?_, ?_⟩
  · have h := SqlConc.play_prompt ⟨B, o⟩ clock0 t 4 nonceSchedule (by decide)
    have e : nonceSchedule.foldl (SqlConc.playPrompt ⟨B, o⟩ clock0 t 4) SqlConc.Config.init =
        nonceSchedule.foldl (SqlConc.play ⟨B, o⟩ clock0 fun _ _ => true) SqlConc.Config.init :=
      quiet0_play t (by cases o <;> cases B <;> decide +kernel)
    rwa [e] at h
  · cases o <;> cases B <;> decide +kernel

/-! ## Two completions at once -/

/-- two threads that complete the same response, the store shared: both look the association up, and then both ask for the
    nonce, one after the other, or (`race`) at the same time -/
def threads0 (race : Bool) : List MemConc.Act :=
  let nonce := Op.useNonce t!"http://op.example/" 1116177111 t!"aa"
  [.tick 1116177110000, .start 0 (.storeAssociation t!"http://op.example/" cassoc1)] ++ List.replicate 6 (.run 0) ++
  [.finish 0, .tick 1116177120000, .start 1 (.getAssociation t!"http://op.example/" (some t!"h")),
    .start 2 (.getAssociation t!"http://op.example/" (some t!"h"))] ++ List.replicate 6 (.run 1) ++
  List.replicate 6 (.run 2) ++ [.finish 1, .finish 2, .start 1 nonce] ++
  (if race then [.start 2 nonce, .run 1, .run 2, .run 1, .run 2, .run 1, .run 2, .finish 1, .finish 2]
    else [.run 1, .run 1, .run 1, .finish 1, .start 2 nonce, .run 2, .run 2, .run 2, .finish 2])

open MemConc in
/-- what comes of it -/
def threaded0 (race : Bool) : Config := (threads0 race).foldl (play clock0 fun _ _ => true) Config.init

theorem threaded0_prompt (race : Bool) (t : Int) : MemConc.Prompt clock0 t (threaded0 race) := by
  have h := MemConc.play_prompt clock0 t 3 (threads0 race) (by cases race <;> decide +kernel)
  have e : (threads0 race).foldl (MemConc.playPrompt clock0 t 3) MemConc.Config.init = threaded0 race := by
    cases race <;> rfl
  rwa [e] at h

/-- whether it is `useNonce` -/
def isNonce0 : Op → Bool
  | .useNonce .. => true
  | _ => false

example : OnceEach (outcomes (threaded0 false)) :=
  c38_memory_threads clock0 _ (threaded0_prompt false) fun u t s => by
    have h : (threaded0 false).returned.Pairwise fun x y =>
        isNonce0 x.op = true → x.op = y.op → ¬ (x.began < y.ended ∧ y.began < x.ended) := by
      decide +kernel
    exact h.imp fun h1 h2 h3 => h1 (by rw [h2]; rfl) (by rw [h2, h3])

/-- C38 falls short here: with a memory store shared by threads, two completions of one response at the same time can
    both succeed. -/
theorem c38_memory_race : (∀ t, MemConc.Prompt clock0 t (threaded0 true)) ∧
    (∀ x ∈ [completion0 true, completion0 true], x.Ran cworld0 cconf0) ∧
    Among [completion0 true, completion0 true] (outcomes (threaded0 true)) ∧
    [completion0 true, completion0 true].countP (fun x => decide (x.query = cquery0 t!"AQIf") && x.succeeded.isSome) = 2 := by
  refine ⟨threaded0_prompt true, by simp [completion0_ran], ?_, by decide +kernel⟩
  intro x
  by_cases hx : x ∈ [completion0 true, completion0 true].flatMap fun r => storeCalls r.events
  · have h : ∀ x ∈ [completion0 true, completion0 true].flatMap fun r => storeCalls r.events,
        ([completion0 true, completion0 true].flatMap fun r => storeCalls r.events).count x ≤
          (outcomes (threaded0 true)).count x := by decide +kernel
    exact h x hx
  · rw [List.count_eq_zero.2 hx]; exact Nat.zero_le _

end Props
