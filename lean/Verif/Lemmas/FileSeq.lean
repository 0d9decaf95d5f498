import Verif.Lemmas.FileSolo
/-! # Association files: whole operations, one after the other -/

namespace FileStore
open Py Files Store Association

theorem run_bind {E : Env} {t : Nat} {fs fs' : FS} {p : Prog α} {f : α → Prog β} {out : Except PyErr β}
    (h : Run E t fs (p.bind f) out fs') :
    (∃ a fs1, Run E t fs p (.ok a) fs1 ∧ Run E t fs1 (f a) out fs') ∨
    (∃ e, Run E t fs p (.error e) fs' ∧ out = .error e) := by
  induction p generalizing fs with
  | done r =>
    cases r with
    | ok a => exact .inl ⟨a, fs, .done _ _, h⟩
    | error e =>
      have h : Run E t fs (.done (.error e)) out fs' := h
      cases h
      exact .inr ⟨e, .done _ _, rfl⟩
  | sys c k ih =>
    have h : Run E t fs (.sys c fun r => (k r).bind f) out fs' := h
    cases h with
    | sys hx h' =>
      rcases ih _ h' with ⟨a, fs1, h1, h2⟩ | ⟨e, h1, h2⟩
      · exact .inl ⟨a, fs1, .sys hx h1, h2⟩
      · exact .inr ⟨e, .sys hx h1, h2⟩

theorem run_done {E : Env} {t : Nat} {fs fs' : FS} {r out : Except PyErr α} (h : Run E t fs (.done r) out fs') :
    out = r ∧ fs' = fs := by
  cases h; exact ⟨rfl, rfl⟩

/-- what a reader at a given second makes of the files -/
def live (X : ExtraDigits) (sec : Int) (fs : FS) (n : Str) : Option Assoc :=
  match view fs n with
  | none => none
  | some b => match parseFile X b with
    | .error _ => none
    | .ok a => if expired sec a then none else some a

/-- only files that a reader takes no notice of were removed -/
structure Shrunk (X : ExtraDigits) (sec : Int) (fs fs' : FS) : Prop where
  view : ∀ n, view fs' n = view fs n ∨ (view fs' n = none ∧ live X sec fs n = none)

theorem Shrunk.refl (X : ExtraDigits) (sec : Int) (fs : FS) : Shrunk X sec fs fs := ⟨fun _ => .inl rfl⟩

theorem live_congr {X : ExtraDigits} {sec : Int} {fs fs' : FS} {n : Str} (h : view fs' n = view fs n) :
    live X sec fs' n = live X sec fs n := by
  unfold live; rw [h]

theorem live_none {X : ExtraDigits} {sec : Int} {fs : FS} {n : Str} (h : view fs n = none) :
    live X sec fs n = none := by
  unfold live; rw [h]

theorem Shrunk.live {X : ExtraDigits} {sec : Int} {fs fs' : FS} (h : Shrunk X sec fs fs') (n : Str) :
    live X sec fs' n = live X sec fs n := by
  rcases h.view n with h | ⟨h, h'⟩
  · exact live_congr h
  · rw [live_none h, h']

theorem Shrunk.trans {X : ExtraDigits} {sec : Int} {a b c : FS} (h : Shrunk X sec a b) (h' : Shrunk X sec b c) :
    Shrunk X sec a c := by
  refine ⟨fun n => ?_⟩
  rcases h'.view n with h1 | ⟨h1, h2⟩
  · rcases h.view n with h3 | ⟨h3, h4⟩
    · exact .inl (h1.trans h3)
    · exact .inr ⟨h1.trans h3, h4⟩
  · exact .inr ⟨h1, by rw [← h.live]; exact h2⟩

theorem shrunk_of_view {X : ExtraDigits} {sec : Int} {fs fs' : FS} (h : ∀ n, FileStore.view fs' n = FileStore.view fs n) :
    Shrunk X sec fs fs' := ⟨fun n => .inl (h n)⟩

/-- `removeIfPresent` in the association directory -/
theorem run_remove {E : Env} {t : Nat} {fs fs' : FS} {n : Str} {out : Except PyErr Nat} (hs : Sane fs)
    (h : Run E t fs (removeIfPresent .assocs n) out fs') :
    (∀ m, m ≠ n → view fs' m = view fs m) ∧ (view fs' n = view fs n ∨ view fs' n = none) ∧
    (∀ k, out = .ok k → view fs' n = none ∧ (k = 1 ↔ (view fs n).isSome = true) ∧ k ≤ 1) ∧
    ∀ e, out = .error e → e = .osError := by
  have hv : ∀ m, view fs m = none ↔ m ∉ fs.names .assocs := by
    intro m
    unfold view FS.names
    rw [Option.map_eq_none_iff, Dict.get?_none_iff]
  cases h with
  | sys hx h' =>
    cases hx with
    | fault _ _ _ hf =>
      cases hf
      obtain ⟨rfl, rfl⟩ := run_done h'
      exact ⟨fun _ _ => rfl, .inl rfl, fun k hk => (by cases hk), fun e h => by cases h; rfl⟩
    | unlink _ _ hm =>
      obtain ⟨rfl, rfl⟩ := run_done h'
      have h1 : ∀ m, view (fs.remove .assocs n) m = if m = n then none else view fs m := by
        intro m
        unfold view FS.remove
        rw [Dict.get?_del _ hs.wfA]
        by_cases h : n = m
        · rw [if_pos h, if_pos h.symm]; rfl
        · rw [if_neg h, if_neg (Ne.symm h)]
      refine ⟨fun m hm => by rw [h1, if_neg hm], .inr (by rw [h1, if_pos rfl]), fun k hk => ?_, fun e h => by cases h⟩
      cases hk
      refine ⟨by rw [h1, if_pos rfl], ?_, Nat.le_refl _⟩
      simp only [true_iff]
      cases hx : view fs n with
      | some b => rfl
      | none => exact absurd hm ((hv n).1 hx)
    | unlinkNone _ _ hm =>
      obtain ⟨rfl, rfl⟩ := run_done h'
      refine ⟨fun _ _ => rfl, .inl rfl, fun k hk => ?_, fun e h => by cases h⟩
      cases hk
      rw [(hv n).2 hm]
      simp

theorem shrunk_remove {E : Env} {t : Nat} {fs fs' : FS} {n : Str} {out : Except PyErr Nat} {X : ExtraDigits} {sec : Int}
    (hs : Sane fs) (h : Run E t fs (removeIfPresent .assocs n) out fs') (hd : live X sec fs n = none) :
    Shrunk X sec fs fs' := by
  obtain ⟨h1, h2, -⟩ := run_remove hs h
  refine ⟨fun m => ?_⟩
  by_cases hm : m = n
  · subst hm
    rcases h2 with h | h
    · exact .inl h
    · exact .inr ⟨h, hd⟩
  · exact .inl (h1 m hm)

/-- reading a file: nothing changes -/
theorem run_readAll {E : Env} {t : Nat} {fs fs' : FS} {i : Nat} {out : Except PyErr Bytes}
    (h : Run E t fs (readAll i) out fs') : fs' = fs ∧ (∀ b, out = .ok b → b = fs.data i) ∧ ∀ e, out = .error e → e = .osError := by
  cases h with
  | sys hx h' =>
    cases hx with
    | fault _ _ _ hf =>
      cases hf
      cases h' with
      | sys hx h' =>
        cases hx with
        | fault _ _ _ hf =>
          cases hf
          obtain ⟨rfl, rfl⟩ := run_done h'
          exact ⟨rfl, fun b h => (by cases h), fun e h => by cases h; rfl⟩
        | close =>
          obtain ⟨rfl, rfl⟩ := run_done h'
          exact ⟨rfl, fun b h => (by cases h), fun e h => by cases h; rfl⟩
    | read =>
      cases h' with
      | sys hx h' =>
        cases hx with
        | fault _ _ _ hf =>
          cases hf
          obtain ⟨rfl, rfl⟩ := run_done h'
          exact ⟨rfl, fun b h => (by cases h), fun e h => by cases h; rfl⟩
        | close =>
          obtain ⟨rfl, rfl⟩ := run_done h'
          exact ⟨rfl, fun b h => (by cases h; rfl), fun e h => by cases h⟩

theorem getExpiresIn_zero (a : Assoc) (sec : Int) : (a.getExpiresIn sec == 0) = true ↔ expired sec a := by
  rw [beq_iff_eq]
  exact (Props.c11_exact a sec).2.2

theorem run_getOne {W : World} {E : Env} {t : Nat} {fs fs' : FS} {n : Str} {out : Except PyErr (Option Assoc)}
    (hs : Sane fs) (h : Run E t fs (getOne W.digits W.clock n) out fs') :
    Shrunk W.digits (W.clock.seconds t) fs fs' ∧
    (∀ r, out = .ok r → r = live W.digits (W.clock.seconds t) fs n ∧ (r = none → view fs' n = none)) ∧
    ∀ e, out = .error e → e = .osError := by
  cases h with
  | sys hx h' =>
    cases hx with
    | fault _ _ _ hf =>
      cases hf
      obtain ⟨rfl, rfl⟩ := run_done h'
      exact ⟨.refl .., fun r h => (by cases h), fun e h => by cases h; rfl⟩
    | openReadNone _ hg =>
      obtain ⟨rfl, rfl⟩ := run_done h'
      have hv : view fs' n = none := by unfold view; rw [hg]; rfl
      exact ⟨.refl .., fun r h => (by cases h; exact ⟨(live_none hv).symm, fun _ => hv⟩), fun e h => by cases h⟩
    | openRead _ i hg =>
      have hv : view fs n = some (fs.data i) := by unfold view; rw [hg]; rfl
      rcases run_bind h' with ⟨b, fs1, h1, h2⟩ | ⟨e, h1, rfl⟩
      · obtain ⟨rfl, hb, -⟩ := run_readAll h1
        have := hb b rfl
        subst this
        clear hb h1 h'
        unfold checkRead at h2
        split at h2
        · next e he =>
          have hl : live W.digits (W.clock.seconds t) fs1 n = none := by unfold live; rw [hv]; simp [he]
          rw [if_pos (parseFile_error he)] at h2
          rcases run_bind h2 with ⟨k, fs2, h3, h4⟩ | ⟨e, h3, rfl⟩
          · obtain ⟨rfl, rfl⟩ := run_done h4
            exact ⟨shrunk_remove hs h3 hl, fun r h => (by cases h; exact ⟨hl.symm, fun _ => ((run_remove hs h3).2.2.1 k rfl).1⟩), fun e h => by cases h⟩
          · exact ⟨shrunk_remove hs h3 hl, fun r h => (by cases h), fun e h => by cases h; exact (run_remove hs h3).2.2.2 _ rfl⟩
        · next a ha =>
          unfold checkExpiry at h2
          cases h2 with
          | sys hx h2 =>
            rename_i fs3 now
            have : fs1 = fs3 ∧ now = t := by
              cases hx with
              | fault _ _ _ hf => cases hf
              | time => exact ⟨rfl, rfl⟩
            obtain ⟨rfl, rfl⟩ := this
            simp only [] at h2
            split at h2
            · next hex =>
              rw [getExpiresIn_zero] at hex
              have hl : live W.digits (W.clock.seconds now) fs1 n = none := by unfold live; rw [hv]; simp [ha, hex]
              rcases run_bind h2 with ⟨k, fs2, h3, h4⟩ | ⟨e, h3, rfl⟩
              · obtain ⟨rfl, rfl⟩ := run_done h4
                exact ⟨shrunk_remove hs h3 hl, fun r h => (by cases h; exact ⟨hl.symm, fun _ => ((run_remove hs h3).2.2.1 k rfl).1⟩), fun e h => by cases h⟩
              · exact ⟨shrunk_remove hs h3 hl, fun r h => (by cases h), fun e h => by cases h; exact (run_remove hs h3).2.2.2 _ rfl⟩
            · next hex =>
              rw [getExpiresIn_zero] at hex
              obtain ⟨rfl, rfl⟩ := run_done h2
              refine ⟨.refl .., fun r h => ?_, fun e h => by cases h⟩
              cases h
              refine ⟨?_, fun h => by cases h⟩
              unfold live; rw [hv]; simp [ha, hex]
      · obtain ⟨rfl, -, he⟩ := run_readAll h1
        exact ⟨.refl .., fun r h => (by cases h), fun e h => by cases h; exact he _ rfl⟩

theorem run_getMany {W : World} {E : Env} {t : Nat} {fs fs' : FS} {l : List Str} {out : Except PyErr (List Assoc)}
    (hs : Sane fs) (h : Run E t fs (getMany W.digits W.clock l) out fs') :
    Shrunk W.digits (W.clock.seconds t) fs fs' ∧
    (∀ as, out = .ok as → as = l.filterMap (live W.digits (W.clock.seconds t) fs) ∧
      ∀ n ∈ l, live W.digits (W.clock.seconds t) fs n = none → view fs' n = none) ∧
    ∀ e, out = .error e → e = .osError := by
  induction l generalizing fs out with
  | nil =>
    obtain ⟨rfl, rfl⟩ := run_done h
    exact ⟨.refl .., fun as h => (by cases h; exact ⟨rfl, by simp⟩), fun e h => by cases h⟩
  | cons n r ih =>
    rcases run_bind h with ⟨a, fs1, h1, h2⟩ | ⟨e, h1, rfl⟩
    · obtain ⟨h3, h4, -⟩ := run_getOne hs h1
      have hs1 := run_sane h1 hs
      rcases run_bind h2 with ⟨as, fs2, h5, h6⟩ | ⟨e, h5, rfl⟩
      · obtain ⟨rfl, rfl⟩ := run_done h6
        obtain ⟨h7, h8, -⟩ := ih hs1 h5
        refine ⟨h3.trans h7, fun as' h => ?_, fun e h => by cases h⟩
        cases h
        have : live W.digits (W.clock.seconds t) fs1 = live W.digits (W.clock.seconds t) fs := funext h3.live
        constructor
        · rw [(h8 as rfl).1, (h4 a rfl).1, List.filterMap_cons, this]
          cases live W.digits (W.clock.seconds t) fs n <;> rfl
        · intro m hm hlm
          by_cases hmr : m ∈ r
          · exact (h8 as rfl).2 m hmr (by rw [this]; exact hlm)
          · have hmn : m = n := by simpa [hmr] using hm
            subst hmn
            have h9 := (h4 a rfl).2 (by rw [(h4 a rfl).1]; exact hlm)
            rcases h7.view m with h | h
            · rw [h, h9]
            · exact h.1
      · obtain ⟨h7, -, h8⟩ := ih hs1 h5
        exact ⟨h3.trans h7, fun as h => (by cases h), fun e h => by cases h; exact h8 _ rfl⟩
    · exact ⟨(run_getOne hs h1).1, fun as h => (by cases h), fun e h => by cases h; exact (run_getOne hs h1).2.2 _ rfl⟩

theorem run_get {W : World} {E : Env} {t : Nat} {fs fs' : FS} {u : Str} {h : Option Str}
    {out : Except PyErr (Option Assoc)} (hs : Sane fs)
    (hr : Run E t fs (getAssociation W.sha1 W.digits W.clock u h) out fs') :
    Shrunk W.digits (W.clock.seconds t) fs fs' ∧
    (∀ r, out = .ok r → ∃ n, assocName W.sha1 u (h.getD []) = .ok n ∧
      (h.getD [] ≠ [] → r = live W.digits (W.clock.seconds t) fs n ∧ (r = none → view fs' n = none)) ∧
      (h.getD [] = [] → (∃ l, List.Perm l (Dict.keys fs.assocs) ∧
        SqlStore.latest ((l.filter (startsWith · (basename n))).filterMap (live W.digits (W.clock.seconds t) fs)) = .ok r) ∧
        ∀ m, startsWith m (basename n) = true → live W.digits (W.clock.seconds t) fs m = none → view fs' m = none)) ∧
    (∀ e, out = .error e → e = .osError ∨ assocName W.sha1 u (h.getD []) = .error e ∨
      h.getD [] = [] ∧ ∃ n l, assocName W.sha1 u (h.getD []) = .ok n ∧ List.Perm l (Dict.keys fs.assocs) ∧
        SqlStore.latest ((l.filter (startsWith · (basename n))).filterMap (live W.digits (W.clock.seconds t) fs)) = .error e) := by
  unfold getAssociation at hr
  cases hn : assocName W.sha1 u (h.getD []) with
  | error e =>
    rw [hn] at hr
    obtain ⟨rfl, rfl⟩ := run_done hr
    exact ⟨.refl .., fun r h => (by cases h), fun e h => by cases h; exact .inr (.inl rfl)⟩
  | ok n =>
    rw [hn] at hr
    simp only at hr
    split at hr
    · next he =>
      cases hr with
      | sys hx h' =>
        cases hx with
        | fault _ _ _ hf =>
          cases hf
          obtain ⟨rfl, rfl⟩ := run_done h'
          exact ⟨.refl .., fun r h => (by cases h), fun e h => by cases h; exact .inl rfl⟩
        | listdir _ l hl =>
          rcases run_bind h' with ⟨as, fs1, h1, h2⟩ | ⟨e, h1, rfl⟩
          · obtain ⟨h3, h4, -⟩ := run_getMany hs h1
            obtain ⟨rfl, rfl⟩ := run_done h2
            rw [(h4 as rfl).1]
            refine ⟨h3, fun r h => ⟨n, rfl, fun hne => absurd he hne, fun _ => ⟨⟨l, hl, h⟩, fun m hm hlm => ?_⟩⟩,
              fun e h => .inr (.inr ⟨he, n, l, rfl, hl, h⟩)⟩
            by_cases hk : m ∈ l
            · exact (h4 as rfl).2 m (List.mem_filter.2 ⟨hk, hm⟩) hlm
            · have hv : view fs m = none := by
                unfold view
                rw [Option.map_eq_none_iff, Dict.get?_none_iff]
                exact fun h => hk (hl.mem_iff.2 h)
              rcases h3.view m with h | h
              · rw [h, hv]
              · exact h.1
          · obtain ⟨h3, -, h4⟩ := run_getMany hs h1
            exact ⟨h3, fun r h => (by cases h), fun e h => .inl (by cases h; exact h4 _ rfl)⟩
    · next he =>
      obtain ⟨h3, h4, h5⟩ := run_getOne hs hr
      exact ⟨h3, fun r h => ⟨n, rfl, fun _ => h4 r h, fun h => absurd h he⟩, fun e h => .inl (h5 e h)⟩

theorem run_removeAssoc {W : World} {E : Env} {t : Nat} {fs fs' : FS} {u h : Str}
    {out : Except PyErr Bool} (hs : Sane fs)
    (hr : Run E t fs (removeAssociation W.sha1 W.digits W.clock u h) out fs') :
    (∀ n, assocName W.sha1 u h = .ok n → ∀ m, m ≠ n → live W.digits (W.clock.seconds t) fs' m = live W.digits (W.clock.seconds t) fs m) ∧
    (∀ e, out = .error e → Shrunk W.digits (W.clock.seconds t) fs fs') ∧
    (∀ b, out = .ok b → h ≠ [] → ∃ n, assocName W.sha1 u h = .ok n ∧ view fs' n = none ∧
      (b = true ↔ (live W.digits (W.clock.seconds t) fs n).isSome = true)) ∧
    (∀ m, live W.digits (W.clock.seconds t) fs' m = live W.digits (W.clock.seconds t) fs m ∨
      (assocName W.sha1 u h = .ok m ∧ view fs' m = none)) := by
  rcases run_bind hr with ⟨a, fs1, h1, h2⟩ | ⟨e, h1, rfl⟩
  · obtain ⟨h3, h4, -⟩ := run_get hs h1
    have hs1 := run_sane h1 hs
    obtain ⟨n, hn, h5, -⟩ := h4 a rfl
    simp only [Option.getD_some] at hn h5
    split at h2
    · next hz =>
      have ha : a = none := by cases a with | none => rfl | some _ => cases hz
      subst ha
      obtain ⟨rfl, rfl⟩ := run_done h2
      refine ⟨fun _ _ m _ => h3.live m, fun e h => (by cases h), fun b hb hne => ?_, fun m => .inl (h3.live m)⟩
      cases hb
      obtain ⟨h6, h7⟩ := h5 hne
      exact ⟨n, hn, h7 rfl, by rw [← h6]; simp⟩
    · next hz =>
      have ha : ∃ x, a = some x := by
        cases a with
        | none => exact absurd rfl hz
        | some x => exact ⟨x, rfl⟩
      obtain ⟨x, rfl⟩ := ha
      rw [hn] at h2
      simp only at h2
      rcases run_bind h2 with ⟨k, fs2, h6, h7⟩ | ⟨e, h6, rfl⟩
      · obtain ⟨rfl, rfl⟩ := run_done h7
        obtain ⟨r1, r2, r3, -⟩ := run_remove hs1 h6
        obtain ⟨q1, q2, q3⟩ := r3 k rfl
        have hoth : ∀ m, m ≠ n → live W.digits (W.clock.seconds t) fs' m = live W.digits (W.clock.seconds t) fs m :=
          fun m hm => (live_congr (r1 m hm)).trans (h3.live m)
        refine ⟨fun n' hn' m hm => ?_, fun e h => (by cases h), fun b hb hne => ⟨n, hn, q1, ?_⟩, fun m => ?_⟩
        · rw [hn] at hn'
          cases hn'
          exact hoth m hm
        · cases hb
          obtain ⟨h8, -⟩ := h5 hne
          rw [← h8]
          have h9 : (view fs1 n).isSome = true := by
            have hl := h3.live n
            rw [← h8] at hl
            cases hv : view fs1 n with
            | some b => rfl
            | none => rw [live_none hv] at hl; cases hl
          simp [q2.2 h9]
        · by_cases hm : m = n
          · subst hm; exact .inr ⟨hn, q1⟩
          · exact .inl (hoth m hm)
      · obtain ⟨r1, r2, -, -⟩ := run_remove hs1 h6
        have hsame : fs' = fs1 := by
          cases h6 with
          | sys hx h' =>
            cases hx with
            | fault _ _ _ hf => cases hf; exact (run_done h').2
            | unlink _ _ hm => exact absurd (run_done h').1 (by simp)
            | unlinkNone _ _ hm => exact absurd (run_done h').1 (by simp)
        subst hsame
        exact ⟨fun _ _ m _ => h3.live m, fun e h => h3, fun b h => (by cases h), fun m => .inl (h3.live m)⟩
  · obtain ⟨h3, -, -⟩ := run_get hs h1
    exact ⟨fun _ _ m _ => h3.live m, fun e h => h3, fun b h => (by cases h), fun m => .inl (h3.live m)⟩

/-- what was read from a file is still what is in it, if it is there -/
def Reads (X : ExtraDigits) (fs : FS) (p : Str × Assoc) : Prop :=
  ∀ b, view fs p.1 = some b → parseFile X b = .ok p.2

theorem Reads.shrunk {X : ExtraDigits} {sec : Int} {fs fs' : FS} {p : Str × Assoc} (h : Reads X fs p)
    (hs : Shrunk X sec fs fs') : Reads X fs' p := by
  intro b hb
  rcases hs.view p.1 with h1 | ⟨h1, -⟩
  · exact h b (h1 ▸ hb)
  · rw [h1] at hb; cases hb

theorem run_readAssoc {X : ExtraDigits} {sec : Int} {E : Env} {t : Nat} {fs fs' : FS} {n : Str}
    {out : Except PyErr (List (Str × Assoc))} (hs : Sane fs) (h : Run E t fs (readAssoc X n) out fs') :
    Shrunk X sec fs fs' ∧ ∀ l, out = .ok l → ∀ p ∈ l, Reads X fs' p := by
  cases h with
  | sys hx h' =>
    cases hx with
    | fault _ _ _ hf =>
      cases hf
      obtain ⟨rfl, rfl⟩ := run_done h'
      exact ⟨.refl .., fun r h => by cases h⟩
    | openReadNone _ hg =>
      obtain ⟨rfl, rfl⟩ := run_done h'
      exact ⟨.refl .., fun r h => by cases h; simp⟩
    | openRead _ i hg =>
      have hv : view fs n = some (fs.data i) := by unfold view; rw [hg]; rfl
      rcases run_bind h' with ⟨b, fs1, h1, h2⟩ | ⟨e, h1, rfl⟩
      · obtain ⟨rfl, hb, -⟩ := run_readAll h1
        have := hb b rfl
        subst this
        split at h2
        · next e he =>
          have hl : live X sec fs1 n = none := by unfold live; rw [hv]; simp [he]
          rw [if_pos (parseFile_error he)] at h2
          rcases run_bind h2 with ⟨k, fs2, h3, h4⟩ | ⟨e, h3, rfl⟩
          · obtain ⟨rfl, rfl⟩ := run_done h4
            exact ⟨shrunk_remove hs h3 hl, fun r h => by cases h; simp⟩
          · exact ⟨shrunk_remove hs h3 hl, fun r h => by cases h⟩
        · next a ha =>
          obtain ⟨rfl, rfl⟩ := run_done h2
          refine ⟨.refl .., fun r h => ?_⟩
          cases h
          intro p hp
          rw [List.mem_singleton] at hp
          subst hp
          intro b hb
          have hb : view fs' n = some b := hb
          rw [hv] at hb
          cases hb
          exact ha
      · obtain ⟨rfl, -, he⟩ := run_readAll h1
        exact ⟨.refl .., fun r h => by cases h⟩

theorem run_readAssocs {X : ExtraDigits} {sec : Int} {E : Env} {t : Nat} {fs fs' : FS} {l : List Str}
    {out : Except PyErr (List (Str × Assoc))} (hs : Sane fs) (h : Run E t fs (readAssocs X l) out fs') :
    Shrunk X sec fs fs' ∧ ∀ l, out = .ok l → ∀ p ∈ l, Reads X fs' p := by
  induction l generalizing fs out with
  | nil =>
    obtain ⟨rfl, rfl⟩ := run_done h
    exact ⟨.refl .., fun r h => by cases h; simp⟩
  | cons n r ih =>
    rcases run_bind h with ⟨x, fs1, h1, h2⟩ | ⟨e, h1, rfl⟩
    · obtain ⟨h3, h4⟩ := run_readAssoc (sec := sec) hs h1
      have hs1 := run_sane h1 hs
      rcases run_bind h2 with ⟨y, fs2, h5, h6⟩ | ⟨e, h5, rfl⟩
      · obtain ⟨rfl, rfl⟩ := run_done h6
        obtain ⟨h7, h8⟩ := ih hs1 h5
        refine ⟨h3.trans h7, fun l hl p hp => ?_⟩
        cases hl
        rcases List.mem_append.1 hp with hp | hp
        · exact (h4 x rfl p hp).shrunk h7
        · exact h8 y rfl p hp
      · obtain ⟨h7, -⟩ := ih hs1 h5
        exact ⟨h3.trans h7, fun r h => by cases h⟩
    · exact ⟨(run_readAssoc hs h1).1, fun r h => by cases h⟩

theorem run_removeExpired {W : World} {E : Env} {t : Nat} {fs fs' : FS} {l : List (Str × Assoc)}
    {out : Except PyErr Nat} (hs : Sane fs) (hl : ∀ p ∈ l, Reads W.digits fs p)
    (h : Run E t fs (removeExpired W.clock l) out fs') : Shrunk W.digits (W.clock.seconds t) fs fs' := by
  induction l generalizing fs out with
  | nil =>
    obtain ⟨rfl, rfl⟩ := run_done h
    exact .refl ..
  | cons p r ih =>
    obtain ⟨n, a⟩ := p
    cases h with
    | sys hx h2 =>
      rename_i fs3 now
      have : fs3 = fs ∧ now = t := by
        cases hx with
        | fault _ _ _ hf => cases hf
        | time => exact ⟨rfl, rfl⟩
      obtain ⟨rfl, rfl⟩ := this
      simp only [] at h2
      split at h2
      · next hex =>
        rw [getExpiresIn_zero] at hex
        have hlv : live W.digits (W.clock.seconds now) fs3 n = none := by
          unfold live
          split
          · rfl
          · next b hb => rw [hl (n, a) (by simp) b hb]; simp [hex]
        rcases run_bind h2 with ⟨k, fs2, h3, h4⟩ | ⟨e, h3, rfl⟩
        · have hsh := shrunk_remove hs h3 hlv
          rcases run_bind h4 with ⟨k', fs4, h5, h6⟩ | ⟨e, h5, rfl⟩
          · obtain ⟨rfl, rfl⟩ := run_done h6
            exact hsh.trans (ih (run_sane h3 hs) (fun p hp => (hl p (by simp [hp])).shrunk hsh) h5)
          · exact hsh.trans (ih (run_sane h3 hs) (fun p hp => (hl p (by simp [hp])).shrunk hsh) h5)
        · exact shrunk_remove hs h3 hlv
      · exact ih hs (fun p hp => hl p (by simp [hp])) h2

theorem run_cleanup {W : World} {E : Env} {t : Nat} {fs fs' : FS} {out : Except PyErr Nat} (hs : Sane fs)
    (h : Run E t fs (cleanupAssociations W.digits W.clock) out fs') : Shrunk W.digits (W.clock.seconds t) fs fs' := by
  cases h with
  | sys hx h' =>
    cases hx with
    | fault _ _ _ hf =>
      cases hf
      obtain ⟨rfl, rfl⟩ := run_done h'
      exact .refl ..
    | listdir _ l hl =>
      rcases run_bind h' with ⟨as, fs1, h1, h2⟩ | ⟨e, h1, rfl⟩
      · obtain ⟨h3, h4⟩ := run_readAssocs (sec := W.clock.seconds t) hs h1
        exact h3.trans (run_removeExpired (run_sane h1 hs) (h4 as rfl) h2)
      · exact (run_readAssocs hs h1).1

/-- the nonce operations leave association files alone -/
theorem exec_nonceOnly {E : Env} {t : Nat} {fs fs' : FS} {c : Call} {r : c.Reply} (hx : Exec E t fs c r fs')
    (hc : match c with
      | .time | .openExcl _ | .close | .listdir _ | .unlink .nonces _ => True
      | _ => False) : ∀ n, view fs' n = view fs n := by
  cases hx with
  | unlink d n h =>
    cases d with
    | nonces => exact fun _ => rfl
    | _ => exact hc.elim
  | mkstemp => exact hc.elim
  | write => exact hc.elim
  | writePart => exact hc.elim
  | rename => exact hc.elim
  | _ => exact fun _ => rfl

theorem run_useNonce {H : Sha1} {c : Clock} {u : Str} {ts : Int} {s : Str} {E : Env} {t : Nat} {fs fs' : FS}
    {out : Except PyErr Bool} (h : Run E t fs (useNonce H c u ts s) out fs') : ∀ n, view fs' n = view fs n := by
  cases h with
  | sys hx h =>
    have h0 := exec_nonceOnly hx trivial
    unfold useNonceAt at h
    split at h
    · obtain ⟨-, rfl⟩ := run_done h
      exact h0
    · split at h
      · obtain ⟨-, rfl⟩ := run_done h
        exact h0
      · cases h with
        | sys hx' h =>
          have h1 := exec_nonceOnly hx' trivial
          rename_i r
          cases r with
          | ok _ =>
            cases h with
            | sys hx2 h =>
              have h2 := exec_nonceOnly hx2 trivial
              rename_i r
              cases r <;> obtain ⟨-, rfl⟩ := run_done h <;> exact fun n => ((h2 n).trans (h1 n)).trans (h0 n)
          | error e => cases e <;> obtain ⟨-, rfl⟩ := run_done h <;> exact fun n => (h1 n).trans (h0 n)

theorem run_removeStale {X : ExtraDigits} {c : Clock} {now : Nat} {l : List Str} {E : Env} {t : Nat} {fs fs' : FS}
    {out : Except PyErr Nat} (h : Run E t fs (removeStale X c now l) out fs') : ∀ n, view fs' n = view fs n := by
  induction l generalizing fs out with
  | nil =>
    obtain ⟨-, rfl⟩ := run_done h
    exact fun _ => rfl
  | cons x r ih =>
    unfold removeStale at h
    split at h
    · obtain ⟨-, rfl⟩ := run_done h
      exact fun _ => rfl
    · split at h
      · rcases run_bind h with ⟨k, fs1, h1, h2⟩ | ⟨e, h1, rfl⟩
        · have h3 : ∀ n, view fs1 n = view fs n := by
            cases h1 with
            | sys hx h1 =>
              have := exec_nonceOnly hx trivial
              rename_i rr
              cases rr with
              | ok _ => obtain ⟨-, rfl⟩ := run_done h1; exact this
              | error e => cases e <;> obtain ⟨-, rfl⟩ := run_done h1 <;> exact this
          rcases run_bind h2 with ⟨k', fs4, h5, h6⟩ | ⟨e, h5, rfl⟩
          · obtain ⟨-, rfl⟩ := run_done h6
            exact fun n => (ih h5 n).trans (h3 n)
          · exact fun n => (ih h5 n).trans (h3 n)
        · cases h1 with
          | sys hx h1 =>
            have := exec_nonceOnly hx trivial
            rename_i rr
            cases rr with
            | ok _ => obtain ⟨-, rfl⟩ := run_done h1; exact this
            | error e => cases e <;> obtain ⟨-, rfl⟩ := run_done h1 <;> exact this
      · exact ih h

theorem run_cleanupNonces {X : ExtraDigits} {c : Clock} {E : Env} {t : Nat} {fs fs' : FS}
    {out : Except PyErr Nat} (h : Run E t fs (cleanupNonces X c) out fs') : ∀ n, view fs' n = view fs n := by
  cases h with
  | sys hx h =>
    have h0 := exec_nonceOnly hx trivial
    rename_i r
    cases r with
    | error e => obtain ⟨-, rfl⟩ := run_done h; exact h0
    | ok l =>
      cases h with
      | sys hx' h =>
        have h1 := exec_nonceOnly hx' trivial
        exact fun n => ((run_removeStale h n).trans (h1 n)).trans (h0 n)

end FileStore
