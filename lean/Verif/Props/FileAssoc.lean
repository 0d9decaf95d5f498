import Verif.Lemmas.FileTrace
import Verif.Props.FileNonce
/-! # C21, C23: associations in the file store

Specification: `Verif/Spec/Store.lean`, `Verif/Spec/FileStore.lean`.  `view fs n` is what a reader finds under
the name `n` in the association directory. -/

namespace Props
open Py Association Store Files FileStore

/-! ## C21: many processes -/

/-- **C21** whatever the processes do, in whatever order, failing and dying wherever: every file in the
    association directory is a complete association that somebody called `storeAssociation` with, under the name
    that belongs to it. -/
theorem c21_complete (W : World) (E : Env) (allowed : Config Op Answer → Proc Op Answer → Prop)
    (cfg : Config Op Answer) (h : Reachable E (program W) allowed cfg) (n : Str) (b : Bytes)
    (hv : view cfg.fs n = some b) :
    ∃ url a s, Op.storeAssociation url a ∈ cfg.started ∧ assocName W.sha1 url a.handle = .ok n ∧
      a.serialize = .ok s ∧ b = Utf8.encode s := by
  obtain ⟨gh, hg⟩ := cinv_reachable (S := (· ∈ cfg.started)) h fun _ h => h
  unfold view at hv
  cases hi : Dict.get? cfg.fs.assocs n with
  | none => rw [hi] at hv; cases hv
  | some i =>
    rw [hi] at hv
    cases hv
    exact (hg.files.assoc n i hi).1

/-- **C21** concurrent readers.  Whatever the processes do: an association that `getAssociation` returned for a
    server and a handle is one that somebody called `storeAssociation` with, for that server and with that
    handle, exactly as it was. -/
theorem c21_read (W : World) (E : Env) (allowed : Config Op Answer → Proc Op Answer → Prop)
    (cfg : Config Op Answer) (h : Reachable E (program W) allowed cfg) (url handle : Str) (hne : handle ≠ [])
    (hl : ∀ x, (W.sha1 x).length = 20)
    (hu : ∀ u a, Op.storeAssociation u a ∈ cfg.started → W.sha1 (Utf8.encode u) = W.sha1 (Utf8.encode url) → u = url)
    (hh : ∀ u a, Op.storeAssociation u a ∈ cfg.started →
      W.sha1 (Utf8.encode a.handle) = W.sha1 (Utf8.encode handle) → a.handle = handle)
    (a : Assoc) (hf : (Op.getAssociation url (some handle), .ok (.assoc (some a))) ∈ cfg.finished) :
    Op.storeAssociation url a ∈ cfg.started ∧ a.handle = handle := by
  obtain ⟨gh, hg⟩ := cinv_reachable (S := (· ∈ cfg.started)) h fun _ h => h
  obtain ⟨n0, n, hn0, ⟨b, ⟨u, a', s, h1, h2, h3, rfl⟩, h4⟩, h5, -⟩ := hg.fin _ hf a rfl
  have := h5 hne
  subst this
  obtain ⟨rfl, -⟩ := parseFile_prefix h3 (List.prefix_refl _) h4
  obtain ⟨rfl, rfl⟩ := c22_injective W.sha1 hl _ _ _ _ _ h2 hn0 (hu u a h1) (hh u a h1)
  exact ⟨h1, rfl⟩

/-- **C21** the same without a handle. -/
theorem c21_read_any (W : World) (E : Env) (allowed : Config Op Answer → Proc Op Answer → Prop)
    (cfg : Config Op Answer) (h : Reachable E (program W) allowed cfg) (url : Str) (hp : PlainUrl url)
    (hl : ∀ x, (W.sha1 x).length = 20)
    (hps : ∀ u a, Op.storeAssociation u a ∈ cfg.started → PlainUrl u)
    (hu : ∀ u a, Op.storeAssociation u a ∈ cfg.started → W.sha1 (Utf8.encode url) = W.sha1 (Utf8.encode u) → url = u)
    (a : Assoc) (hf : (Op.getAssociation url none, .ok (.assoc (some a))) ∈ cfg.finished) :
    Op.storeAssociation url a ∈ cfg.started := by
  obtain ⟨gh, hg⟩ := cinv_reachable (S := (· ∈ cfg.started)) h fun _ h => h
  obtain ⟨n0, n, hn0, ⟨b, ⟨u, a', s, h1, h2, h3, rfl⟩, h4⟩, -, h5⟩ := hg.fin _ hf a rfl
  obtain ⟨rfl, -⟩ := parseFile_prefix h3 (List.prefix_refl _) h4
  obtain ⟨p, r, rfl, hd⟩ := hp
  obtain ⟨p', r', rfl, hd'⟩ := hps u a h1
  have := (c22_prefix W.sha1 hl p r p' r' a.handle n0 n hd ⟨hd'.1, hd'.2.2⟩ hn0 h2 (hu _ a h1)).1 (h5 rfl)
  rw [this]
  exact h1

def fassoc (h : Str) (issued lifetime : Int) : Assoc := ⟨h, [1, 2, 3], issued, lifetime, t!"HMAC-SHA1"⟩

/-- two processes store under the same server and handle while a third reads; one writer dies in between -/
def schedule1 : List (Act Op) :=
  [.start 1 (.storeAssociation t!"http://op/" (fassoc t!"h" 0 10)),
   .start 2 (.storeAssociation t!"http://op/" (fassoc t!"h" 5 10)),
   .start 3 (.getAssociation t!"http://op/" (some t!"h")),
   .run 1, .run 1, .run 1, .run 2, .run 2, .run 1, .run 2, .run 2, .run 1, .run 1, .run 1, .finish 1, .run 2,
   .run 3, .crash 2, .run 3, .run 3, .run 3, .finish 3,
   .start 3 (.getAssociation t!"http://op/" none), .run 3, .run 3, .run 3, .run 3, .run 3, .finish 3]

example : ∃ cfg, Reachable ⟨false, fun _ => True⟩ (program world0) (fun _ _ => True) cfg ∧
    cfg.finished.reverse = [(.storeAssociation t!"http://op/" (fassoc t!"h" 0 10), .ok .nothing),
      (.getAssociation t!"http://op/" (some t!"h"), .ok (.assoc (some (fassoc t!"h" 0 10)))),
      (.getAssociation t!"http://op/" none, .ok (.assoc (some (fassoc t!"h" 0 10))))] ∧
    (cfg.fs.names .assocs).length = 1 ∧ (cfg.fs.names .temp).length = 1 :=
  ⟨_, play_reachable (test := fun _ _ => true) (fun _ _ _ => trivial) schedule1, by decide +kernel⟩

/-! ## C21: crash points -/

/-- the file systems processes get to are sane -/
theorem c21_sane (W : World) (E : Env) (allowed : Config Op Answer → Proc Op Answer → Prop)
    (cfg : Config Op Answer) (h : Reachable E (program W) allowed cfg) : Sane cfg.fs := by
  obtain ⟨gh, hg⟩ := cinv_reachable (S := (· ∈ cfg.started)) h fun _ h => h
  exact hg.files.sane

/-- **C21** crash points.  A call `storeAssociation(url, a)` stopped anywhere, with any failures on the way, on a
    system where renaming replaces: readers find under every name what was there before, or else what was there
    before but for the one name, where they find the complete new association. -/
theorem c21_atomic (W : World) (E : Env) (hw : E.win = false) (t : Nat) (fs fs' : FS) (hs : Sane fs) (url : Str)
    (a : Assoc) (p : Prog Unit) (h : Steps E t fs (storeAssociation W.sha1 W.early url a) fs' p) :
    (∀ m, view fs' m = view fs m) ∨
    ∃ n s, assocName W.sha1 url a.handle = .ok n ∧ a.serialize = .ok s ∧
      ∀ m, view fs' m = if m = n then some (Utf8.encode s) else view fs m := by
  obtain ⟨g, hi, -⟩ := store_steps hs h
  cases hp : g.pub with
  | false => exact .inl (hi.before hw hp)
  | true =>
    obtain ⟨b, n, ht, hv⟩ := hi.after hw hp
    right
    unfold target at ht
    simp only at ht
    split at ht
    · next s n' h1 h2 => cases ht; exact ⟨n, s, h2, h1, hv⟩
    · cases ht

/-- **C21** when the call returns, the new association is there; when it raises, nothing has changed. -/
theorem c21_done (W : World) (E : Env) (hw : E.win = false) (t : Nat) (fs fs' : FS) (hs : Sane fs) (url : Str)
    (a : Assoc) (out : Except PyErr Unit) (h : Run E t fs (storeAssociation W.sha1 W.early url a) out fs') :
    (out = .ok () → ∃ n s, assocName W.sha1 url a.handle = .ok n ∧ a.serialize = .ok s ∧
      ∀ m, view fs' m = if m = n then some (Utf8.encode s) else view fs m) ∧
    (∀ e, out = .error e → ∀ m, view fs' m = view fs m) := by
  obtain ⟨g, hi, hd⟩ := store_steps hs (run_steps h)
  obtain ⟨-, hd⟩ := hd out rfl
  constructor
  · intro ho
    obtain ⟨b, n, ht, hv⟩ := hi.after hw (hd.1 ho)
    unfold target at ht
    simp only at ht
    split at ht
    · next s n' h1 h2 => cases ht; exact ⟨n, s, h2, h1, hv⟩
    · cases ht
  · intro e he
    refine hi.before hw ?_
    cases hp : g.pub with
    | false => rfl
    | true => rw [hd.2 hp] at he; cases he

/-- **C21** on any system, Windows included: other names are never touched, and under the name itself readers
    find what was there before, the complete new association, or nothing. -/
theorem c21_windows (W : World) (E : Env) (t : Nat) (fs fs' : FS) (hs : Sane fs) (url : Str)
    (a : Assoc) (p : Prog Unit) (h : Steps E t fs (storeAssociation W.sha1 W.early url a) fs' p) (m : Str) :
    (assocName W.sha1 url a.handle ≠ .ok m → view fs' m = view fs m) ∧
    (view fs' m = view fs m ∨ view fs' m = none ∨ ∃ s, a.serialize = .ok s ∧ view fs' m = some (Utf8.encode s)) := by
  obtain ⟨g, hi, -⟩ := store_steps hs h
  have key : ∀ b, target W (.storeAssociation url a) = some (b, m) →
      assocName W.sha1 url a.handle = .ok m ∧ ∃ s, a.serialize = .ok s ∧ b = Utf8.encode s := by
    intro b ht
    unfold target at ht
    simp only at ht
    split at ht
    · next s n' h1 h2 => cases ht; exact ⟨h2, s, h1, rfl⟩
    · cases ht
  refine ⟨fun hn => hi.others m fun b ht => hn (key b ht).1, ?_⟩
  by_cases ht : ∃ b, target W (.storeAssociation url a) = some (b, m)
  · obtain ⟨b, ht⟩ := ht
    obtain ⟨-, s, h1, rfl⟩ := key b ht
    rcases hi.win _ _ ht with h | h | h
    · exact .inl h
    · exact .inr (.inl h)
    · exact .inr (.inr ⟨s, h1, h⟩)
  · exact .inl (hi.others m fun b h => ht ⟨b, h⟩)

/-- **C21** no temporary file is left behind by a call that ends, returning or raising, if files can be removed. -/
theorem c21_no_temp (W : World) (E : Env) (t : Nat) (fs fs' : FS) (hs : Sane fs) (url : Str)
    (a : Assoc) (out : Except PyErr Unit) (h : Run E t fs (storeAssociation W.sha1 W.early url a) out fs')
    (hf : ∀ n, ¬ E.faulty (.unlink .temp n)) (m : Str) : m ∈ fs'.names .temp ↔ m ∈ fs.names .temp := by
  obtain ⟨g, hi, hd⟩ := store_steps hs (run_steps h)
  have h1 := hi.temp hf m (fun i b hx => by rw [(hd out rfl).1] at hx; cases hx)
  unfold FS.names
  rw [Dict.mem_keys_iff, Dict.mem_keys_iff, h1]

/-- the calls of a process that fails writing -/
example : ∃ fs', Run ⟨false, fun c => ∃ i b, c = .write i b⟩ 0 FS.empty
      (storeAssociation hash0 4096 t!"http://op/" (fassoc t!"h" 0 10)) (.error .osError) fs' ∧
    fs'.names .temp = [] ∧ fs'.names .assocs = [] := by
  refine ⟨_, .sys (.mkstemp _ t!"T" (by decide)) (.sys (.fdopen _) (.sys (.writePart _ _ 7 _ ⟨_, _, rfl⟩)
    (.sys (.fault _ _ _ ⟨_, _, rfl⟩ rfl) (.sys (.close _) (.sys (.unlink _ _ _ ?_) (.done _ _)))))), ?_⟩
  · decide +kernel
  · decide +kernel

/-! ## C21: power -/

/-- **C21** a file with only the beginning of an association in it is never taken for an association, and a
    reader sees the difference: the parser raises `ValueError`. -/
theorem c21_truncated (X : ExtraDigits) (a : Assoc) (s : Str) (hs : a.serialize = .ok s) (b : Bytes)
    (hb : b <+: Utf8.encode s) (hne : b ≠ Utf8.encode s) :
    ∃ e, parseFile X b = .error e ∧ e.isValueError = true := by
  cases hp : parseFile X b with
  | error e => exact ⟨e, rfl, parseFile_error hp⟩
  | ok a' => exact absurd (parseFile_prefix hs hb hp).2 hne

example : ∃ s, (fassoc t!"h" 0 10).serialize = .ok s ∧ (Utf8.encode s).length = 73 ∧
    parseFile (fun _ => none) ((Utf8.encode s).take 72) = .error .kvFormError := by
  refine ⟨_, rfl, ?_⟩
  decide +kernel

/-- **C21** after a loss of power that cuts files down to any length, at any time in any execution: what
    `getAssociation` then returns is still a complete association, exactly as somebody stored it. -/
theorem c21_power (W : World) (E : Env) (allowed : Config Op Answer → Proc Op Answer → Prop)
    (cfg : Config Op Answer) (h : Reachable E (program W) allowed cfg) (fs1 fs2 : FS) (hp : PowerLoss cfg.fs fs1)
    (E' : Env) (t : Nat) (url : Str) (handle : Option Str) (a : Assoc)
    (hr : Run E' t fs1 (getAssociation W.sha1 W.digits W.clock url handle) (.ok (some a)) fs2) :
    ∃ u n, Op.storeAssociation u a ∈ cfg.started ∧ assocName W.sha1 u a.handle = .ok n ∧
      (handle.getD [] ≠ [] → assocName W.sha1 url (handle.getD []) = .ok n) := by
  obtain ⟨p1, p2, p3, p4, p5⟩ := hp
  have hs0 := c21_sane W E allowed cfg h
  have hs : Sane fs1 := ⟨p3 ▸ hs0.wfT, p2 ▸ hs0.wfA, by rw [p3, p4]; exact hs0.ltT, by rw [p2, p4]; exact hs0.ltA,
    by rw [p3]; exact hs0.inj⟩
  have key : ∀ n, live W.digits (W.clock.seconds t) fs1 n = some a →
      ∃ u, Op.storeAssociation u a ∈ cfg.started ∧ assocName W.sha1 u a.handle = .ok n := by
    intro n hl
    unfold live at hl
    split at hl
    · cases hl
    · next b hb =>
      unfold view at hb
      rw [p2] at hb
      cases hi : Dict.get? cfg.fs.assocs n with
      | none => rw [hi] at hb; cases hb
      | some i =>
        rw [hi, Option.map_some, Option.some.injEq] at hb
        obtain ⟨u, a', s, h1, h2, h3, h4⟩ := c21_complete W E allowed cfg h n (cfg.fs.data i) (by rw [view, hi]; rfl)
        split at hl
        · cases hl
        · next a2 ha2 =>
          obtain ⟨rfl, -⟩ := parseFile_prefix h3 (h4 ▸ hb ▸ (p5 i).2) ha2
          split at hl
          · cases hl
          · cases hl
            exact ⟨u, h1, h2⟩
  obtain ⟨-, h1, -⟩ := run_get hs hr
  obtain ⟨n, hn, h2, h3⟩ := h1 _ rfl
  by_cases hh : handle.getD [] = []
  · obtain ⟨⟨l, -, hl⟩, -⟩ := h3 hh
    have := ((SqlStore.latest_ok _ _ hl).2 a rfl).1
    obtain ⟨m, -, hm⟩ := List.mem_filterMap.1 this
    obtain ⟨u, h4, h5⟩ := key m hm
    exact ⟨u, m, h4, h5, fun hne => absurd hh hne⟩
  · obtain ⟨u, h4, h5⟩ := key n (h2 hh).1.symm
    exact ⟨u, n, h4, h5, fun _ => hn⟩

/-- **C21** but the store does not see to it that what it stored survives: `fsync` is called while the data is still
    in the buffer of the file object.  After a store that returned and a loss of power, a lookup finds nothing. -/
theorem c21_power_lost : ∃ fs fs1 fs2 : FS,
    Run ⟨false, fun _ => False⟩ 0 FS.empty (storeAssociation hash0 0 t!"http://op/" (fassoc t!"h" 0 10)) (.ok ()) fs ∧
    PowerLoss fs fs1 ∧
    Run ⟨false, fun _ => False⟩ 0 fs1 (getAssociation hash0 (fun _ => none) clock0 t!"http://op/" (some t!"h"))
      (.ok none) fs2 := by
  let st := runDet 0 FS.empty (storeAssociation hash0 0 t!"http://op/" (fassoc t!"h" 0 10))
  have h1 : st.1 = .ok () := by decide +kernel
  let fs1 : FS := { st.2 with data := fun _ => [] }
  let g := runDet 0 fs1 (getAssociation hash0 (fun _ => none) clock0 t!"http://op/" (some t!"h"))
  have h2 : g.1 = .ok none := by decide +kernel
  refine ⟨st.2, fs1, g.2, ?_, ⟨rfl, rfl, rfl, rfl, fun i => ⟨?_, List.nil_prefix⟩⟩, ?_⟩
  · rw [← h1]; exact runDet_run _ _ _ _
  · have : st.2.synced i = [] := by
      cases i with
      | zero => decide +kernel
      | succ n => rfl
    rw [this]
    exact List.nil_prefix
  · rw [← h2]; exact runDet_run _ _ _ _

/-! ## C23: the file store returns no expired association -/

/-- **C23** lookup by handle, in any history of calls one after the other, with any failures: what comes back is the
    association last stored for that server and handle and not removed, if its lifetime is not over; otherwise
    nothing comes back, and no file is left under its name. -/
theorem c23_file_get (W : World) (E : Env) (hw : E.win = false) (U T : Str → Prop) (hcu : NoCollision W.sha1 U)
    (hct : NoCollision W.sha1 T) (tr : Trace) (fs fs' : FS) (h : Ran W E FS.empty tr fs)
    (hop : ∀ x ∈ tr, GoodOp U T x.1.2) (now : Nat) (url handle : Str) (r : Option Assoc)
    (hm : Trace.Monotone (tr ++ [((now, .getAssociation url (some handle)), .ok (.assoc r))]))
    (hu : U url) (hh : T handle) (hne : handle ≠ [])
    (hr : Run E now fs (program W (.getAssociation url (some handle))) (.ok (.assoc r)) fs') :
    r = alive W.clock now (lastStored tr) url handle ∧
    (r = none → ∀ n, assocName W.sha1 url handle = .ok n → n ∉ fs'.names .assocs) := by
  unfold Trace.Monotone at hm
  rw [List.pairwise_append] at hm
  have hi := tinv_ran hw hcu hct h hop hm.1 (t := now)
    fun x hx => hm.2.2 x hx ((now, .getAssociation url (some handle)), .ok (.assoc r)) (by simp)
  rcases run_bind hr with ⟨a, fs1, h1, h2⟩ | ⟨e, -, he⟩
  · obtain ⟨e1, rfl⟩ := run_done h2
    have : r = a := by cases e1; rfl
    subst this
    obtain ⟨-, h3, -⟩ := run_get hi.sane h1
    obtain ⟨n, hn, h4, -⟩ := h3 r rfl
    obtain ⟨h5, h6⟩ := h4 hne
    refine ⟨by rw [h5]; exact hi.same url handle n hu hh hne hn, fun hr0 n' hn' => ?_⟩
    simp only [Option.getD_some] at hn
    rw [hn] at hn'
    cases hn'
    have := h6 hr0
    unfold view at this
    rw [Option.map_eq_none_iff, Dict.get?_none_iff] at this
    exact this
  · cases he

theorem mem_live_prefix {W : World} {U T : Str → Prop} {tr : Trace} {now : Nat} {fs : FS} (hi : TInv W U T tr now fs)
    (hcu : NoCollision W.sha1 U) (hpl : ∀ u, U u → PlainUrl u) {url n0 : Str} (hu : U url)
    (hn0 : assocName W.sha1 url [] = .ok n0) {l : List Str} (hl : List.Perm l (Dict.keys fs.assocs)) (a : Assoc) :
    a ∈ (l.filter (startsWith · (basename n0))).filterMap (live W.digits (W.clock.seconds now) fs) ↔
      ∃ h, alive W.clock now (lastStored tr) url h = some a := by
  obtain ⟨p, r, rfl, hd⟩ := hpl url hu
  rw [List.mem_filterMap]
  constructor
  · rintro ⟨n, hn, hlv⟩
    obtain ⟨u, h1, h2, h3, h4⟩ := hi.src n a hlv
    obtain ⟨p', r', rfl, hd'⟩ := hpl u h1
    have := (c22_prefix W.sha1 hcu.1 p r p' r' a.handle n0 n hd ⟨hd'.1, hd'.2.2⟩ hn0 h4
      (hcu.2 _ _ hu h1)).1 (List.mem_filter.1 hn).2
    rw [← this] at h1 h4
    exact ⟨a.handle, by rw [← hi.same _ a.handle n h1 h2 h3 h4]; exact hlv⟩
  · rintro ⟨h, ha⟩
    have hls : lastStored tr (p ++ t!"://" ++ r) h = some a := by
      unfold alive at ha
      cases hx : lastStored tr (p ++ t!"://" ++ r) h with
      | none => rw [hx] at ha; cases ha
      | some b =>
        rw [hx] at ha
        simp only [Option.filter] at ha
        split at ha
        · exact ha
        · cases ha
    obtain ⟨rfl, h1, h2, h3, n, hn⟩ := hi.dom _ _ _ hls
    have hlv := hi.same _ _ n h1 h2 h3 hn
    rw [ha] at hlv
    refine ⟨n, List.mem_filter.2 ⟨hl.mem_iff.2 ?_, ?_⟩, hlv⟩
    · rw [Dict.mem_keys_iff]
      cases hg : Dict.get? fs.assocs n with
      | some i => rfl
      | none => rw [live_none (by rw [view, hg]; rfl)] at hlv; cases hlv
    · exact (c22_prefix W.sha1 hcu.1 p r p r a.handle n0 n hd ⟨hd.1, hd.2.2⟩ hn0 hn fun _ => rfl).2 rfl

/-- **C23** lookup without a handle: what comes back is among the live associations of that server one issued last,
    and nothing only if there is none; no file of an expired association of that server is left. -/
theorem c23_file_best (W : World) (E : Env) (hw : E.win = false) (U T : Str → Prop) (hcu : NoCollision W.sha1 U)
    (hct : NoCollision W.sha1 T) (hpl : ∀ u, U u → PlainUrl u) (tr : Trace) (fs fs' : FS) (h : Ran W E FS.empty tr fs)
    (hop : ∀ x ∈ tr, GoodOp U T x.1.2) (now : Nat) (url : Str) (r : Option Assoc)
    (hm : Trace.Monotone (tr ++ [((now, .getAssociation url none), .ok (.assoc r))])) (hu : U url)
    (hr : Run E now fs (program W (.getAssociation url none)) (.ok (.assoc r)) fs') :
    (r = none ↔ ∀ h, alive W.clock now (lastStored tr) url h = none) ∧
    (∀ a, r = some a → alive W.clock now (lastStored tr) url a.handle = some a ∧
      ∀ h' a', alive W.clock now (lastStored tr) url h' = some a' → a'.issued ≤ a.issued) ∧
    (∀ h n, T h → h ≠ [] → assocName W.sha1 url h = .ok n → alive W.clock now (lastStored tr) url h = none →
      n ∉ fs'.names .assocs) := by
  unfold Trace.Monotone at hm
  rw [List.pairwise_append] at hm
  have hi := tinv_ran hw hcu hct h hop hm.1 (t := now)
    fun x hx => hm.2.2 x hx ((now, .getAssociation url none), .ok (.assoc r)) (by simp)
  rcases run_bind hr with ⟨a, fs1, h1, h2⟩ | ⟨e, -, he⟩
  · obtain ⟨e1, rfl⟩ := run_done h2
    have : r = a := by cases e1; rfl
    subst this
    obtain ⟨-, h3, -⟩ := run_get hi.sane h1
    obtain ⟨n0, hn0, -, h4⟩ := h3 r rfl
    obtain ⟨⟨l, hl, hlat⟩, h5⟩ := h4 rfl
    have hmem := mem_live_prefix hi hcu hpl hu hn0 hl
    obtain ⟨q1, q2⟩ := SqlStore.latest_ok _ _ hlat
    refine ⟨?_, fun a ha => ?_, fun hd n hT hne hn hal => ?_⟩
    · rw [q1]
      constructor
      · intro hnil hd
        cases hx : alive W.clock now (lastStored tr) url hd with
        | none => rfl
        | some a =>
          have := (hmem a).2 ⟨hd, hx⟩
          rw [hnil] at this
          cases this
      · intro hall
        refine List.eq_nil_iff_forall_not_mem.2 fun a ha => ?_
        obtain ⟨hd, hx⟩ := (hmem a).1 ha
        rw [hall] at hx
        cases hx
    · obtain ⟨q3, q4⟩ := q2 a ha
      obtain ⟨hd, hx⟩ := (hmem a).1 q3
      have hh : a.handle = hd := by
        unfold alive at hx
        cases hy : lastStored tr url hd with
        | none => rw [hy] at hx; cases hx
        | some b =>
          rw [hy] at hx
          simp only [Option.filter] at hx
          split at hx
          · cases hx; exact (hi.dom _ _ _ hy).1
          · cases hx
      rw [hh]
      exact ⟨hx, fun h' a' h => q4 a' ((hmem a').2 ⟨h', h⟩)⟩
    · have hlv := hi.same url hd n hu hT hne hn
      rw [hal] at hlv
      obtain ⟨p, r', rfl, hd'⟩ := hpl url hu
      have hpre := (c22_prefix W.sha1 hcu.1 p r' p r' hd n0 n hd' ⟨hd'.1, hd'.2.2⟩ hn0 hn fun _ => rfl).2 rfl
      have := h5 n hpre hlv
      unfold view at this
      rw [Option.map_eq_none_iff, Dict.get?_none_iff] at this
      exact this
  · cases he

/-- **C23** when a lookup raises: `OSError` (a system call failed), `ValueError` (the URL has no `://`), or, without
    handle, `TypeError` — exactly when two live associations were issued in the same second. -/
theorem c23_file_raises (W : World) (E : Env) (hw : E.win = false) (U T : Str → Prop) (hcu : NoCollision W.sha1 U)
    (hct : NoCollision W.sha1 T) (hpl : ∀ u, U u → PlainUrl u) (tr : Trace) (fs fs' : FS) (h : Ran W E FS.empty tr fs)
    (hop : ∀ x ∈ tr, GoodOp U T x.1.2) (now : Nat) (url : Str) (handle : Option Str) (e : PyErr)
    (hm : Trace.Monotone (tr ++ [((now, .getAssociation url handle), .error e)])) (hu : U url)
    (hr : Run E now fs (program W (.getAssociation url handle)) (.error e) fs') :
    e = .osError ∨ (e = .typeError ∧ handle.getD [] = [] ∧
      ∃ h1 a1 h2 a2, alive W.clock now (lastStored tr) url h1 = some a1 ∧
        alive W.clock now (lastStored tr) url h2 = some a2 ∧ a1 ≠ a2 ∧ a1.issued = a2.issued) := by
  unfold Trace.Monotone at hm
  rw [List.pairwise_append] at hm
  have hi := tinv_ran hw hcu hct h hop hm.1 (t := now)
    fun x hx => hm.2.2 x hx ((now, .getAssociation url handle), .error e) (by simp)
  rcases run_bind hr with ⟨a, fs1, h1, h2⟩ | ⟨e', h1, he⟩
  · obtain ⟨e1, -⟩ := run_done h2
    cases e1
  · cases he
    obtain ⟨-, -, h3⟩ := run_get hi.sane h1
    rcases h3 e rfl with h | h | ⟨hd, n, l, hn, hl, hlat⟩
    · exact .inl h
    · obtain ⟨p, r, rfl, hd⟩ := hpl url hu
      obtain ⟨n, hn⟩ := (c22_total W.sha1 (p ++ t!"://" ++ r) (handle.getD [])).2 ⟨p, r, rfl⟩
      rw [hn] at h
      cases h
    · rw [hd] at hn
      have hmem := mem_live_prefix hi hcu hpl hu hn hl
      obtain ⟨rfl, a, ha, b, hb, hab, hiss⟩ := (SqlStore.latest_error _ _).1 hlat
      obtain ⟨x1, hx1⟩ := (hmem a).1 ha
      obtain ⟨x2, hx2⟩ := (hmem b).1 hb
      exact .inr ⟨rfl, hd, x1, a, x2, b, hx1, hx2, hab, hiss⟩

/-- a history: two associations of one server, one of another; later one is expired -/
def history0 : List (Nat × Op) :=
  [(0, .storeAssociation t!"http://op/" (fassoc t!"h" 0 10)), (1000, .storeAssociation t!"http://op/" (fassoc t!"k" 1 2)),
   (2000, .storeAssociation t!"http://o2/" (fassoc t!"h" 2 100)), (2500, .getAssociation t!"http://op/" none),
   (3000, .getAssociation t!"http://op/" none), (4000, .removeAssociation t!"http://o2/" t!"h"),
   (4000, .getAssociation t!"http://o2/" (some t!"h")), (5000, .cleanupAssociations)]

def ranDet (W : World) : FS → List (Nat × Op) → Trace × FS
  | fs, [] => ([], fs)
  | fs, (t, op) :: r =>
    let x := runDet t fs (program W op)
    let y := ranDet W x.2 r
    (((t, op), x.1) :: y.1, y.2)

theorem ranDet_ran (W : World) (F : Files.Call → Prop) (fs0 fs : FS) (tr : Trace) (h : Ran W ⟨false, F⟩ fs0 tr fs)
    (l : List (Nat × Op)) : Ran W ⟨false, F⟩ fs0 (tr ++ (ranDet W fs l).1) (ranDet W fs l).2 := by
  induction l generalizing fs tr with
  | nil => simpa [ranDet] using h
  | cons e r ih =>
    obtain ⟨t, op⟩ := e
    have := ih _ _ (.snoc (now := t) (op := op) h (runDet_run F t fs (program W op)))
    simpa [ranDet] using this

example : ∃ tr fs, Ran world0 ⟨false, fun _ => False⟩ FS.empty tr fs ∧
    tr.map (·.1) = history0 ∧
    tr.map (·.2) = [.ok .nothing, .ok .nothing, .ok .nothing, .ok (.assoc (some (fassoc t!"k" 1 2))),
      .ok (.assoc (some (fassoc t!"h" 0 10))), .ok (.bool true), .ok (.assoc none), .ok (.count 0)] :=
  ⟨_, _, ranDet_ran world0 _ _ _ _ (.nil _) history0, by decide +kernel, by decide +kernel⟩

example : NoCollision world0.sha1 (fun x => x = t!"h" ∨ x = t!"k") ∧
    NoCollision world0.sha1 (fun x => x = t!"http://op/" ∨ x = t!"http://o2/") ∧
    ∀ x ∈ history0, GoodOp (fun x => x = t!"http://op/" ∨ x = t!"http://o2/") (fun x => x = t!"h" ∨ x = t!"k") x.2 := by
  refine ⟨⟨fun x => by simp [world0, hash0], ?_⟩, ⟨fun x => by simp [world0, hash0], ?_⟩, ?_⟩
  · rintro x y (rfl | rfl) (rfl | rfl) h <;> first | rfl | exact absurd h (by decide)
  · rintro x y (rfl | rfl) (rfl | rfl) h <;> first | rfl | exact absurd h (by decide +kernel)
  · simp [history0, GoodOp, fassoc, allAssociationTypes]

/-- **C23** `TypeError` does happen: two live associations issued in the same second, and a lookup without handle. -/
theorem c23_file_tie : ∃ tr fs, Ran world0 ⟨false, fun _ => False⟩ FS.empty tr fs ∧
    tr.map (·.2) = [.ok .nothing, .ok .nothing, .error .typeError] :=
  ⟨_, _, ranDet_ran world0 _ _ _ _ (.nil _) [(0, .storeAssociation t!"http://op/" (fassoc t!"h" 0 10)),
    (0, .storeAssociation t!"http://op/" (fassoc t!"k" 0 10)), (0, .getAssociation t!"http://op/" none)],
    by decide +kernel⟩

end Props
