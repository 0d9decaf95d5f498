import Verif.Lemmas.FileNonce
import Verif.Lemmas.FilePlay
import Verif.Spec.FileStore
/-! # Processes of a file store that are not held up -/

namespace FileStore
open Py Files Store Association

theorem prompt_timely {W : World} {E : Env} {T : Int → Prop} {cfg : Config Op Answer} (h : Prompt W E T cfg) :
    Careful W T cfg ∧ Reachable E (program W) (Timely W.clock T) cfg := by
  induction h with
  | init => exact ⟨fun i u t s n _ hi => by simp [Config.init] at hi, .init⟩
  | step _ h' hw ih =>
    have := careful_step ih.1 (timely_ninv ih.2) h' hw
    exact ⟨this.1, ih.2.step this.2⟩

theorem Prompt.mono {W : World} {E : Env} {T T' : Int → Prop} (hT : ∀ t, T t → T' t) {cfg : Config Op Answer}
    (h : Prompt W E T' cfg) : Prompt W E T cfg := by
  induction h with
  | init => exact .init
  | step _ h' hw ih => exact .step ih h' fun i p url t salt ht => hw i p url t salt (hT t ht)

/-! ## Playing -/

/-- as `play`, but the clock only moves if it does not move out of the five hours around a time of `T` while one of the
    first `n` processes is using a nonce of that time -/
def playPrompt (W : World) (T : Int → Bool) (n : Nat) (cfg : Config Op Answer) : Act Op → Config Op Answer
  | .tick now =>
    if (List.range n).all (fun i => match cfg.procs i with
        | some ⟨.useNonce _ t' _, _⟩ =>
          !T t' || !decide (W.clock.within 18000 cfg.clock t') || decide (W.clock.within 18000 now t')
        | _ => true) then play (program W) (fun _ _ => true) cfg (.tick now) else cfg
  | a => play (program W) (fun _ _ => true) cfg a

def actOf : Act Op → Option Nat
  | .tick _ => none
  | .start i _ | .run i | .finish i | .crash i => some i

theorem play_step (W : World) (F : Call → Prop) (cfg : Config Op Answer) (a : Act Op) :
    play (program W) (fun _ _ => true) cfg a = cfg ∨
      Step ⟨false, F⟩ (program W) (fun _ _ => True) cfg (play (program W) (fun _ _ => true) cfg a) := by
  cases a with
  | tick t =>
    simp only [play]
    split
    · next hl => exact .inr (.tick cfg t hl)
    · exact .inl rfl
  | start i op =>
    simp only [play]
    split
    · next hl => exact .inr (.start cfg i op (by simpa using hl))
    · exact .inl rfl
  | run i =>
    simp only [play]
    cases hp : cfg.procs i with
    | none => exact .inl rfl
    | some p =>
      obtain ⟨op, q⟩ := p
      cases q with
      | done r => exact .inl rfl
      | sys c k =>
        simp only [runProc, if_true]
        exact .inr (.sys cfg i op c k _ _ hp trivial (execDet_exec F _ _ c))
  | finish i =>
    simp only [play]
    cases hp : cfg.procs i with
    | none => exact .inl rfl
    | some p =>
      obtain ⟨op, q⟩ := p
      cases q with
      | done r => exact .inr (.finish cfg i op r hp)
      | sys c k => exact .inl rfl
  | crash i => exact .inr (.crash cfg i)

/-- an action that is not of the clock moves neither the clock nor the other processes -/
theorem play_local (W : World) (cfg : Config Op Answer) (a : Act Op) (i : Nat) (h : actOf a = some i) :
    (play (program W) (fun _ _ => true) cfg a).clock = cfg.clock ∧
      ∀ j, j ≠ i → (play (program W) (fun _ _ => true) cfg a).procs j = cfg.procs j := by
  cases a with
  | tick t => cases h
  | start i' op =>
    obtain rfl := Option.some.inj h
    simp only [play]
    split
    · exact ⟨rfl, fun j hj => by simp [Config.put, hj]⟩
    · exact ⟨rfl, fun _ _ => rfl⟩
  | run i' =>
    obtain rfl := Option.some.inj h
    simp only [play, runProc, if_true]
    repeat' split
    all_goals exact ⟨rfl, fun j hj => by simp [Config.put, hj]⟩
  | finish i' =>
    obtain rfl := Option.some.inj h
    simp only [play, finishProc]
    repeat' split
    all_goals exact ⟨rfl, fun j hj => by simp [Config.put, hj]⟩
  | crash i' =>
    obtain rfl := Option.some.inj h
    exact ⟨rfl, fun j hj => by simp [play, Config.put, hj]⟩

theorem play_prompt (W : World) (F : Call → Prop) (T : Int → Bool) (n : Nat) (acts : List (Act Op))
    (hb : acts.all (fun a => (actOf a).all fun i => decide (i < n)) = true) :
    Prompt W ⟨false, F⟩ (T · = true) (acts.foldl (playPrompt W T n) (Config.init Op Answer)) := by
  have hn : ∀ a ∈ acts, ∀ i, actOf a = some i → i < n := fun a ha i hi => by
    have := List.all_eq_true.1 hb a ha
    rw [hi] at this
    simpa using this
  clear hb
  suffices h : ∀ cfg, Prompt W ⟨false, F⟩ (T · = true) cfg → (∀ i, n ≤ i → cfg.procs i = none) →
      Prompt W ⟨false, F⟩ (T · = true) (acts.foldl (playPrompt W T n) cfg) from h _ .init fun _ _ => rfl
  induction acts with
  | nil => exact fun cfg h _ => h
  | cons a r ih =>
    intro cfg h hidle
    suffices hs : Prompt W ⟨false, F⟩ (T · = true) (playPrompt W T n cfg a) ∧
        ∀ i, n ≤ i → (playPrompt W T n cfg a).procs i = none from
      ih (fun a ha => hn a (List.mem_cons_of_mem _ ha)) _ hs.1 hs.2
    have hother : ∀ i, actOf a = some i →
        Prompt W ⟨false, F⟩ (T · = true) (play (program W) (fun _ _ => true) cfg a) ∧
        ∀ i, n ≤ i → (play (program W) (fun _ _ => true) cfg a).procs i = none := fun i hi => by
      have hl := play_local W cfg a i hi
      refine ⟨?_, fun j hj => ?_⟩
      · rcases play_step W F cfg a with he | hs
        · rw [he]; exact h
        · exact .step h hs fun _ _ _ _ _ _ _ _ hw => by rw [hl.1]; exact hw
      · have := hn a (List.mem_cons_self ..) i hi
        rw [hl.2 j (by omega)]
        exact hidle j hj
    cases a with
    | tick now =>
      simp only [playPrompt]
      split
      · next hall =>
        refine ⟨?_, fun j hj => ?_⟩
        · rcases play_step W F cfg (.tick now) with he | hs
          · rw [he]; exact h
          · refine .step h hs fun i p url t' salt ht hi hop hw => ?_
            have hin : i < n := Nat.lt_of_not_le fun hle => by rw [hidle i hle] at hi; cases hi
            have := List.all_eq_true.1 hall i (List.mem_range.2 hin)
            obtain ⟨op, todo⟩ := p
            simp only at hop
            subst hop
            rw [hi] at this
            simp only [ht, hw, decide_true, Bool.not_true, Bool.false_or, decide_eq_true_eq] at this
            simp only [play]
            split
            · exact this
            · exact hw
        · simp only [play]
          split <;> exact hidle j hj
      · exact ⟨h, hidle⟩
    | start i op => exact hother i rfl
    | run i => exact hother i rfl
    | finish i => exact hother i rfl
    | crash i => exact hother i rfl

end FileStore
