import Verif.Spec.Sreg
import Verif.Props.Transport
import Verif.Props.ConsumerSigned
/-! # C46: simple registration -/

namespace Props
open Py Message Spec Sreg

theorem mem_dataFields (f : Str) : f ∈ dataFields ↔ f ∈ sregFields := by
  simp only [dataFields, sregFields, List.mem_cons, List.not_mem_nil, or_false]
  constructor <;> (intro h; rcases h with h | h | h | h | h | h | h | h | h <;> simp [h])

theorem wanted_none {r : Request} {f : Str} : wanted r f = none ↔ f ∉ r.required ∧ f ∉ r.optional := by
  unfold wanted
  by_cases h : f ∈ r.required <;> by_cases g : f ∈ r.optional <;> simp [h, g]

/-- C46: One field: exactly what is refused, and what the request asks for afterwards. -/
theorem c46_field (r : Request) (hr : Proper r) (f : Str) (required strict : Bool) :
    ((wanted r).allows f strict ∧ ∃ r', r.requestField f required strict = .ok r' ∧ Proper r' ∧
      wanted r' = (wanted r).ask f required ∧ r'.policyUrl = r.policyUrl ∧ r'.nsUri = r.nsUri) ∨
    (¬ (wanted r).allows f strict ∧ r.requestField f required strict = .error .valueError) := by
  by_cases hf : f ∈ sregFields
  · have hc : checkFieldName f = .ok () := by
      rw [checkFieldName, if_pos]
      exact List.contains_iff_mem.2 ((mem_dataFields f).2 hf)
    have happ : ∀ r : Request, Proper r → wanted r f = none → Proper (r.append f required) ∧
        wanted (r.append f required) = (wanted r).ask f required ∧ (r.append f required).policyUrl = r.policyUrl ∧
          (r.append f required).nsUri = r.nsUri := by
      intro r hr hn
      obtain ⟨h1, h2⟩ := wanted_none.1 hn
      cases required with
      | true =>
        refine ⟨⟨?_, ?_⟩, ?_, rfl, rfl⟩
        · simp only [Request.append, if_true]
          have := hr.1
          grind
        · intro g hg
          simp only [Request.append, if_true, List.mem_append, List.mem_singleton] at hg
          rcases hg with (hg | rfl) | hg
          · exact hr.2 g (by simp [hg])
          · exact hf
          · exact hr.2 g (by simp [hg])
        · funext g
          simp only [Request.append, if_true, wanted, Wanted.ask, List.mem_append, List.mem_singleton, Bool.true_or]
          by_cases e : g = f <;> simp [e]
      | false =>
        refine ⟨⟨?_, ?_⟩, ?_, rfl, rfl⟩
        · simp only [Request.append]
          have := hr.1
          grind
        · intro g hg
          simp only [Request.append, Bool.false_eq_true, if_false, List.mem_append, List.mem_singleton] at hg
          rcases hg with hg | hg | rfl
          · exact hr.2 g (by simp [hg])
          · exact hr.2 g (by simp [hg])
          · exact hf
        · funext g
          simp only [Request.append, Bool.false_eq_true, if_false, wanted, Wanted.ask, List.mem_append, List.mem_singleton, Bool.false_or]
          by_cases e : g = f
          · subst e; simp [h1, h2]
          · simp [e]
    cases strict with
    | true =>
      by_cases hn : wanted r f = none
      · left
        refine ⟨⟨hf, fun _ => hn⟩, r.append f required, ?_, ?_⟩
        · obtain ⟨h1, h2⟩ := wanted_none.1 hn
          simp [Request.requestField, hc, h1, h2]
        · exact happ r hr hn
      · right
        refine ⟨fun h => hn (h.2 rfl), ?_⟩
        have : f ∈ r.required ∨ f ∈ r.optional := by
          by_cases h1 : f ∈ r.required
          · exact .inl h1
          · by_cases h2 : f ∈ r.optional
            · exact .inr h2
            · exact absurd (wanted_none.2 ⟨h1, h2⟩) hn
        simp [Request.requestField, hc, this]
    | false =>
      left
      refine ⟨⟨hf, by simp⟩, ?_⟩
      by_cases h1 : f ∈ r.required
      · refine ⟨r, by simp [Request.requestField, hc, h1], hr, ?_, rfl, rfl⟩
        funext g
        by_cases e : g = f
        · subst e; simp [Wanted.ask, wanted, h1]
        · simp [Wanted.ask, e]
      · by_cases h2 : f ∈ r.optional
        · cases required with
          | false =>
            refine ⟨r, by simp [Request.requestField, hc, h1, h2], hr, ?_, rfl, rfl⟩
            funext g
            by_cases e : g = f
            · subst e; simp [Wanted.ask, wanted, h1, h2]
            · simp [Wanted.ask, e]
          | true =>
            have hnd := List.nodup_append.1 hr.1
            have hp : Proper { r with optional := r.optional.erase f } := by
              refine ⟨?_, ?_⟩
              · refine List.nodup_append.2 ⟨hnd.1, hnd.2.1.erase f, ?_⟩
                intro a ha b hb
                exact hnd.2.2 a ha b (List.mem_of_mem_erase hb)
              · intro g hg
                rcases List.mem_append.1 hg with hg | hg
                · exact hr.2 g (by simp [hg])
                · exact hr.2 g (List.mem_append_right _ (List.mem_of_mem_erase hg))
            have hn : wanted { r with optional := r.optional.erase f } f = none :=
              wanted_none.2 ⟨h1, fun h => ((hnd.2.1.mem_erase_iff).1 h).1 rfl⟩
            obtain ⟨g1, g2, g3, g4⟩ := happ _ hp hn
            refine ⟨_, by simp [Request.requestField, hc, h1, h2], g1, ?_, g3, g4⟩
            rw [g2]
            funext g
            by_cases e : g = f
            · simp [Wanted.ask, e]
            · simp only [Wanted.ask, e, if_false, wanted]
              by_cases h3 : g ∈ r.required
              · simp [h3]
              · simp [h3, hnd.2.1.mem_erase_iff, e]
        · refine ⟨r.append f required, by simp [Request.requestField, hc, h1, h2], happ r hr (wanted_none.2 ⟨h1, h2⟩)⟩
  · right
    refine ⟨fun h => hf h.1, ?_⟩
    have hc : checkFieldName f = .error .valueError := by
      rw [checkFieldName, if_neg]
      intro h
      exact hf ((mem_dataFields f).1 (List.contains_iff_mem.1 h))
    simp [Request.requestField, hc]

/-- C46: Several fields: all up to the first that is refused, which raises `ValueError`. -/
theorem c46_fields (r : Request) (hr : Proper r) (fs : List Str) (required strict : Bool) :
    Proper (r.requestFields fs required strict).1 ∧
    wanted (r.requestFields fs required strict).1 = ((wanted r).askAll strict (fs.map (·, required))).1 ∧
    (r.requestFields fs required strict).2 =
      (if ((wanted r).askAll strict (fs.map (·, required))).2 then none else some .valueError) ∧
    (r.requestFields fs required strict).1.policyUrl = r.policyUrl ∧
    (r.requestFields fs required strict).1.nsUri = r.nsUri := by
  induction fs generalizing r with
  | nil => simp [Request.requestFields, Wanted.askAll, hr]
  | cons f fs ih =>
    rw [List.map_cons, Wanted.askAll]
    rcases c46_field r hr f required strict with ⟨h1, r', h2, h3, h4, h5, h6⟩ | ⟨h1, h2⟩
    · obtain ⟨i1, i2, i3, i4, i5⟩ := ih r' h3
      simp only [Request.requestFields, h2, if_pos h1, ← h4, ← h5, ← h6]
      exact ⟨i1, i2, i3, i4, i5⟩
    · simp [Request.requestFields, h2, if_neg h1, hr]

theorem parseNames_strict (r : Request) (fs : List Str) (required : Bool) (hr : Proper r) :
    r.parseNames fs required true = r.requestFields fs required true := by
  induction fs generalizing r with
  | nil => rfl
  | cons f fs ih =>
    rcases c46_field r hr f required true with ⟨h1, r', h2, h3, -⟩ | ⟨h1, h2⟩
    · simp only [Request.parseNames, Request.requestFields, h2]; exact ih r' h3
    · simp [Request.parseNames, Request.requestFields, h2]

theorem parseNames_lenient (r : Request) (hr : Proper r) (fs : List Str) (required : Bool) :
    ∃ r', r.parseNames fs required false = (r', none) ∧ Proper r' ∧
      wanted r' = (wanted r).tryAll (fs.map (·, required)) ∧ r'.policyUrl = r.policyUrl ∧ r'.nsUri = r.nsUri := by
  induction fs generalizing r with
  | nil => exact ⟨r, rfl, hr, rfl, rfl, rfl⟩
  | cons f fs ih =>
    rw [List.map_cons, Wanted.tryAll]
    rcases c46_field r hr f required false with ⟨h1, r1, h2, h3, h4, h5, h6⟩ | ⟨h1, h2⟩
    · obtain ⟨r', i1, i2, i3, i4, i5⟩ := ih r1 h3
      refine ⟨r', by simp only [Request.parseNames, h2]; exact i1, i2, ?_, i4.trans h5, i5.trans h6⟩
      rw [if_pos h1, i3, h4]
    · obtain ⟨r', i1, i2, i3, i4, i5⟩ := ih r hr
      refine ⟨r', ?_, i2, ?_, i4, i5⟩
      · simp only [Request.parseNames, h2, PyErr.isValueError]; exact i1
      · rw [if_neg h1]; exact i3

theorem parseList_eq (r : Request) (items : Option Str) (required strict : Bool) :
    r.parseList items required strict = r.parseNames (namesIn items) required strict := by
  unfold Request.parseList namesIn
  cases items with
  | none => rfl
  | some s => cases s <;> rfl

theorem askAll_append (w : Wanted) (strict : Bool) (a b : List (Str × Bool)) :
    w.askAll strict (a ++ b) =
      if (w.askAll strict a).2 then (w.askAll strict a).1.askAll strict b else w.askAll strict a := by
  induction a generalizing w with
  | nil => simp [Wanted.askAll]
  | cons p a ih =>
    obtain ⟨f, q⟩ := p
    rw [List.cons_append, Wanted.askAll, Wanted.askAll]
    by_cases h : w.allows f strict
    · simp only [if_pos h, ih]
    · simp [if_neg h]

theorem tryAll_append (w : Wanted) (a b : List (Str × Bool)) : w.tryAll (a ++ b) = (w.tryAll a).tryAll b := by
  induction a generalizing w with
  | nil => rfl
  | cons p a ih =>
    obtain ⟨f, q⟩ := p
    rw [List.cons_append, Wanted.tryAll, Wanted.tryAll]
    split <;> exact ih _

/-- C46: Arguments are added to a request: without `strict` nothing is raised and what is not understood is skipped; -/
theorem c46_parse_lenient (r : Request) (hr : Proper r) (args : Dict Str Str) :
    ∃ r', r.parseExtensionArgs args false = (r', none) ∧ Proper r' ∧ wanted r' = (wanted r).tryAll (namesOf args) ∧
      r'.policyUrl = args.get? t!"policy_url" ∧ r'.nsUri = r.nsUri := by
  obtain ⟨r1, h1, h2, h3, h4, h5⟩ := parseNames_lenient r hr (namesIn (args.get? t!"required")) true
  obtain ⟨r2, g1, g2, g3, g4, g5⟩ := parseNames_lenient r1 h2 (namesIn (args.get? t!"optional")) false
  refine ⟨{ r2 with policyUrl := args.get? t!"policy_url" }, ?_, g2, ?_, rfl, g5.trans h5⟩
  · rw [Request.parseExtensionArgs, parseList_eq, h1]
    simp only [parseList_eq, g1]
  · rw [namesOf, tryAll_append, ← h3, ← g3]; rfl

/-- C46: with `strict` the first name refused raises `ValueError`. -/
theorem c46_parse_strict (r : Request) (hr : Proper r) (args : Dict Str Str) :
    Proper (r.parseExtensionArgs args true).1 ∧
    wanted (r.parseExtensionArgs args true).1 = ((wanted r).askAll true (namesOf args)).1 ∧
    (r.parseExtensionArgs args true).2 = (if ((wanted r).askAll true (namesOf args)).2 then none else some .valueError) ∧
    (r.parseExtensionArgs args true).1.policyUrl =
      (if ((wanted r).askAll true (namesOf args)).2 then args.get? t!"policy_url" else r.policyUrl) := by
  obtain ⟨h1, h2, h3, h4, h5⟩ := c46_fields r hr (namesIn (args.get? t!"required")) true true
  rw [Request.parseExtensionArgs, parseList_eq, parseNames_strict _ _ _ hr, namesOf, askAll_append]
  obtain ⟨p, hp⟩ : ∃ p, r.requestFields (namesIn (args.get? t!"required")) true true = p := ⟨_, rfl⟩
  rw [hp] at h1 h2 h3 h4 h5
  rw [hp]
  obtain ⟨r1, e⟩ := p
  simp only at h1 h2 h3 h4 h5
  obtain ⟨w, hw⟩ : ∃ w, (wanted r).askAll true ((namesIn (args.get? t!"required")).map (·, true)) = w := ⟨_, rfl⟩
  rw [hw] at h2 h3
  rw [hw]
  obtain ⟨w1, b⟩ := w
  simp only at h2 h3
  cases b with
  | false =>
    simp only [Bool.false_eq_true, if_false] at h3 ⊢
    subst h3
    exact ⟨h1, h2, rfl, h4⟩
  | true =>
    simp only [if_true] at h3 ⊢
    subst h3
    obtain ⟨g1, g2, g3, g4, g5⟩ := c46_fields r1 h1 (namesIn (args.get? t!"optional")) false true
    simp only [parseList_eq, parseNames_strict _ _ _ h1]
    obtain ⟨p, hp⟩ : ∃ p, r1.requestFields (namesIn (args.get? t!"optional")) false true = p := ⟨_, rfl⟩
    rw [hp] at g1 g2 g3 g4 g5
    rw [hp]
    obtain ⟨r2, e⟩ := p
    simp only at g1 g2 g3 g4 g5
    rw [h2] at g2 g3
    obtain ⟨w, hw⟩ : ∃ w, w1.askAll true ((namesIn (args.get? t!"optional")).map (·, false)) = w := ⟨_, rfl⟩
    rw [hw] at g2 g3
    rw [hw]
    obtain ⟨w2, b⟩ := w
    cases b with
    | false =>
      simp only [Bool.false_eq_true, if_false] at g2 g3 ⊢
      subst g3
      exact ⟨g1, g2, rfl, g4.trans h4⟩
    | true =>
      simp only [if_true] at g2 g3 ⊢
      subst g3
      exact ⟨g1, g2, rfl, rfl⟩

/-- C46: After any history of operations on a new request no field is asked for twice or is unknown, and what is asked for
    is what the operations asked for. -/
theorem c46_history (policyUrl : Option Str) (nsUri : Str) (ops : List SregOp) :
    Proper (ops.foldl sregStep { policyUrl := policyUrl, nsUri := nsUri }) ∧
    wanted (ops.foldl sregStep { policyUrl := policyUrl, nsUri := nsUri }) = ops.foldl wantStep fun _ => none := by
  have : ∀ (r : Request) (w : Wanted), Proper r → wanted r = w →
      Proper (ops.foldl sregStep r) ∧ wanted (ops.foldl sregStep r) = ops.foldl wantStep w := by
    induction ops with
    | nil => intro r w h1 h2; exact ⟨h1, h2⟩
    | cons op ops ih =>
      intro r w hr hw
      subst hw
      rw [List.foldl_cons, List.foldl_cons]
      cases op with
      | field f required strict =>
        rcases c46_field r hr f required strict with ⟨h1, r', h2, h3, h4, -⟩ | ⟨h1, h2⟩
        · refine ih _ _ (by simpa [sregStep, h2] using h3) ?_
          simp [sregStep, h2, wantStep, Wanted.askAll, h1, h4]
        · refine ih _ _ (by simpa [sregStep, h2] using hr) ?_
          simp [sregStep, h2, wantStep, Wanted.askAll, h1]
      | fields fs required strict =>
        obtain ⟨h1, h2, -⟩ := c46_fields r hr fs required strict
        exact ih _ _ h1 h2
      | parse args strict =>
        cases strict with
        | true =>
          obtain ⟨h1, h2, -⟩ := c46_parse_strict r hr args
          exact ih _ _ h1 h2
        | false =>
          obtain ⟨r', h0, h1, h2, -⟩ := c46_parse_lenient r hr args
          have e : sregStep r (.parse args false) = r' := by simp [sregStep, h0]
          rw [e]
          exact ih _ _ h1 h2
  exact this _ _ ⟨by simp, by simp⟩ (by funext f; simp [wanted])

example : (([.fields [t!"email", t!"dob"] false true, .field t!"email" true false, .fields [t!"age", t!"gender"] true false,
    .parse [(t!"required", t!"nickname,shoe"), (t!"optional", t!"email")] false] : List SregOp).foldl sregStep {}) =
    { required := [t!"email", t!"nickname"], optional := [t!"dob"] } := by decide +kernel

theorem requestField_fresh (r : Request) (f : Str) (hf : f ∈ sregFields) (hn : wanted r f = none)
    (required strict : Bool) : r.requestField f required strict = .ok (r.append f required) := by
  have hc : checkFieldName f = .ok () := by
    rw [checkFieldName, if_pos]
    exact List.contains_iff_mem.2 ((mem_dataFields f).2 hf)
  obtain ⟨h1, h2⟩ := wanted_none.1 hn
  cases strict <;> simp [Request.requestField, hc, h1, h2]

/-- the fields in a list that are new to a request -/
theorem parseNames_fresh (r : Request) (hr : Proper r) (fs : List Str) (required strict : Bool) (hnd : fs.Nodup)
    (hf : ∀ f ∈ fs, f ∈ sregFields ∧ wanted r f = none) :
    r.parseNames fs required strict = ((if required then { r with required := r.required ++ fs }
      else { r with optional := r.optional ++ fs }), none) ∧
    r.requestFields fs required strict = r.parseNames fs required strict := by
  induction fs generalizing r with
  | nil => cases required <;> simp [Request.parseNames, Request.requestFields]
  | cons f fs ih =>
    obtain ⟨h1, h2⟩ := hf f (by simp)
    have he := requestField_fresh r f h1 h2 required strict
    rcases c46_field r hr f required strict with ⟨-, r', g2, g3, g4, -⟩ | ⟨g1, -⟩
    · rw [he] at g2
      obtain rfl : r.append f required = r' := by simpa using g2
      obtain ⟨i1, i2⟩ := ih (r.append f required) g3 (List.nodup_cons.1 hnd).2 (by
        intro g hg
        refine ⟨(hf g (by simp [hg])).1, ?_⟩
        rw [g4, Wanted.ask, if_neg]
        · exact (hf g (by simp [hg])).2
        · rintro rfl; exact (List.nodup_cons.1 hnd).1 hg)
      simp only [Request.parseNames, Request.requestFields, he]
      refine ⟨?_, i2⟩
      rw [i1]
      cases required <;> simp [Request.append]
    · exact absurd ⟨h1, fun _ => h2⟩ g1

/-- C46: A request is made with the fields given, in order, iff each is a field of simple registration and none is given
    twice. -/
theorem c46_new (required optional : List Str) (policyUrl : Option Str) (nsUri : Str) :
    Request.new required optional policyUrl nsUri =
      if (required ++ optional).Nodup ∧ ∀ f ∈ required ++ optional, f ∈ sregFields then
        .ok ⟨required, optional, policyUrl, nsUri⟩
      else .error .valueError := by
  have hr0 : Proper { policyUrl := policyUrl, nsUri := nsUri } := ⟨by simp, by simp⟩
  have hstop : ∀ (r : Request), Proper r → ∀ (fs : List Str) (b : Bool),
      ¬ (fs.Nodup ∧ ∀ f ∈ fs, f ∈ sregFields ∧ wanted r f = none) → (r.requestFields fs b true).2 = some .valueError := by
    intro r hr fs b hno
    rw [(c46_fields r hr fs b true).2.2.1, if_neg]
    intro hall
    apply hno
    clear hno
    generalize wanted r = w at hall ⊢
    induction fs generalizing w with
    | nil => simp
    | cons f fs ih =>
      rw [List.map_cons, Wanted.askAll] at hall
      by_cases ha : w.allows f true
      · rw [if_pos ha] at hall
        obtain ⟨i1, i2⟩ := ih _ hall
        refine ⟨List.nodup_cons.2 ⟨fun hm => ?_, i1⟩, ?_⟩
        · have := (i2 f hm).2
          simp [Wanted.ask] at this
        · intro g hg
          rcases List.mem_cons.1 hg with rfl | hg
          · exact ⟨ha.1, ha.2 rfl⟩
          · obtain ⟨j1, j2⟩ := i2 g hg
            refine ⟨j1, ?_⟩
            rw [Wanted.ask] at j2
            split at j2
            · cases j2
            · exact j2
      · rw [if_neg ha] at hall; cases hall
  rw [Request.new]
  by_cases h1 : required.Nodup ∧ ∀ f ∈ required, f ∈ sregFields
  · obtain ⟨e1, e2⟩ := parseNames_fresh _ hr0 required true true h1.1 (fun f hf => ⟨h1.2 f hf, by simp [wanted]⟩)
    rw [e2, e1]
    simp only [if_true, List.nil_append]
    have hp : Proper { required := required, policyUrl := policyUrl, nsUri := nsUri } := ⟨by simpa using h1.1, by simpa using h1.2⟩
    by_cases h2 : optional.Nodup ∧ ∀ f ∈ optional, f ∈ sregFields ∧ f ∉ required
    · obtain ⟨g1, g2⟩ := parseNames_fresh _ hp optional false true h2.1 (fun f hf => ⟨(h2.2 f hf).1, by
        simp [wanted, (h2.2 f hf).2]⟩)
      rw [g2, g1]
      simp only [Bool.false_eq_true, if_false, List.nil_append]
      rw [if_pos]
      refine ⟨List.nodup_append.2 ⟨h1.1, h2.1, ?_⟩, ?_⟩
      · intro a ha b hb hab
        subst hab
        exact (h2.2 a hb).2 ha
      · intro f hf
        rcases List.mem_append.1 hf with hf | hf
        · exact h1.2 f hf
        · exact (h2.2 f hf).1
    · have := hstop _ hp optional false (fun hno => h2 ⟨hno.1, fun f hf => ⟨(hno.2 f hf).1, (wanted_none.1 (hno.2 f hf).2).1⟩⟩)
      rw [if_neg]
      · split
        · next r e => rw [e] at this; simp at this; rw [this]
        · next r e => rw [e] at this; cases this
      · intro hno
        obtain ⟨k1, k2, k3⟩ := List.nodup_append.1 hno.1
        exact h2 ⟨k2, fun f hf => ⟨hno.2 f (by simp [hf]), fun hr => k3 f hr f hf rfl⟩⟩
  · have := hstop _ hr0 required true (fun hno => h1 ⟨hno.1, fun f hf => (hno.2 f hf).1⟩)
    rw [if_neg]
    · split
      · next r e => rw [e] at this; simp at this; rw [this]
      · next r e => rw [e] at this; cases this
    · intro hno
      exact h1 ⟨(List.nodup_append.1 hno.1).1, fun f hf => hno.2 f (by simp [hf])⟩

example : Request.new [t!"email"] [t!"dob", t!"gender"] none nsUri11 = .ok { required := [t!"email"], optional := [t!"dob", t!"gender"] } := by
  decide +kernel

example : Request.new [t!"email"] [t!"email"] none nsUri11 = .error .valueError := by decide +kernel

/-- an empty policy address is not sent -/
def policyOf (p : Option Str) : Option Str := if p = some [] then none else p

theorem getExtensionArgs_get (r : Request) :
    r.getExtensionArgs.get? t!"required" = (if r.required = [] then none else some (join t!"," r.required)) ∧
    r.getExtensionArgs.get? t!"optional" = (if r.optional = [] then none else some (join t!"," r.optional)) ∧
    r.getExtensionArgs.get? t!"policy_url" = policyOf r.policyUrl ∧ Dict.WF r.getExtensionArgs := by
  obtain ⟨req, opt, pol, ns⟩ := r
  rw [Request.getExtensionArgs]
  have hp : pol = none ∨ pol = some [] ∨ ∃ c cs, pol = some (c :: cs) := by
    rcases pol with _ | _ | ⟨c, cs⟩ <;> simp
  rcases hp with rfl | rfl | ⟨c, cs, rfl⟩ <;> cases req <;> cases opt <;>
    simp [Dict.get?_cons, Dict.get?_nil, Dict.WF, Dict.keys, policyOf]

theorem namesIn_join (l : List Str) (h : ∀ f ∈ l, f ∈ sregFields) :
    namesIn (if l = [] then none else some (join t!"," l)) = l := by
  have hk : ∀ f ∈ sregFields, ',' ∉ f ∧ f ≠ [] := by decide
  cases l with
  | nil => rfl
  | cons f fs =>
    have h1 := splitOn_join ',' (f :: fs) (by simp) (fun p hp => (hk p (h p hp)).1)
    have h2 : join t!"," (f :: fs) ≠ [] := by
      have := (hk f (h f (by simp))).2
      cases fs with
      | nil => simpa [join] using this
      | cons g gs => simp [join]
    simp only [List.cons_ne_nil, if_false, namesIn, if_neg h2]
    exact h1

/-- C46: Parsing the arguments of a request, in any order, gives the request back, but for an empty policy address, which
    is none. -/
theorem c46_round_trip (r : Request) (hr : Proper r) (args : Dict Str Str) (ha : Dict.Same args r.getExtensionArgs)
    (strict : Bool) : Request.parseExtensionArgs { nsUri := r.nsUri } args strict =
      ({ r with policyUrl := policyOf r.policyUrl }, none) := by
  obtain ⟨h1, h2, h3, -⟩ := getExtensionArgs_get r
  obtain ⟨n1, n2, n3⟩ := List.nodup_append.1 hr.1
  have hr0 : Proper { nsUri := r.nsUri } := ⟨by simp, by simp⟩
  obtain ⟨e1, -⟩ := parseNames_fresh _ hr0 r.required true strict n1 (fun f hf => ⟨hr.2 f (by simp [hf]), by simp [wanted]⟩)
  have hp : Proper { required := r.required, nsUri := r.nsUri } :=
    ⟨by simpa using n1, fun f hf => hr.2 f (by simp at hf; simp [hf])⟩
  obtain ⟨e2, -⟩ := parseNames_fresh _ hp r.optional false strict n2 (fun f hf => ⟨hr.2 f (by simp [hf]), by
    have : f ∉ r.required := fun h => n3 f h f hf rfl
    simp [wanted, this]⟩)
  rw [Request.parseExtensionArgs, parseList_eq, ha t!"required", h1, namesIn_join _ (fun f hf => hr.2 f (by simp [hf])), e1]
  simp only [if_true, List.nil_append]
  rw [parseList_eq, ha t!"optional", h2, namesIn_join _ (fun f hf => hr.2 f (by simp [hf])), e2]
  simp only [Bool.false_eq_true, if_false, List.nil_append, ha t!"policy_url", h3]

/-- C46: A response has a value for a field iff the field was asked for and there is a value for it. -/
theorem c46_extract (r : Request) (data : Dict Str (Option Str)) :
    (extractResponse r data).nsUri = r.nsUri ∧ Dict.WF (extractResponse r data).data ∧
    ∀ f v, (extractResponse r data).data.get? f = some v ↔ wanted r f ≠ none ∧ data.get? f = some (some v) := by
  refine ⟨rfl, ?_⟩
  have : ∀ (l : List Str) (d : Dict Str Str), Dict.WF d →
      Dict.WF (l.foldl (takeValue data) d) ∧
      ∀ f v, (l.foldl (takeValue data) d).get? f = some v ↔
        (f ∈ l ∧ data.get? f = some (some v)) ∨ (¬ (f ∈ l ∧ ∃ w, data.get? f = some (some w)) ∧ d.get? f = some v) := by
    intro l
    induction l with
    | nil => intro d hd; simp [hd]
    | cons g l ih =>
      intro d hd
      rw [List.foldl_cons, takeValue]
      cases hg : data.get? g with
      | none =>
        simp only
        refine ⟨(ih d hd).1, fun f v => ?_⟩
        rw [(ih d hd).2]
        by_cases e : f = g
        · subst e; simp [hg]
        · simp [e]
      | some o => cases o with
        | none =>
          simp only
          refine ⟨(ih d hd).1, fun f v => ?_⟩
          rw [(ih d hd).2]
          by_cases e : f = g
          · subst e; simp [hg]
          · simp [e]
        | some w =>
          simp only
          refine ⟨(ih _ (Dict.WF_set d hd g w)).1, fun f v => ?_⟩
          rw [(ih _ (Dict.WF_set d hd g w)).2]
          by_cases e : f = g
          · subst e
            by_cases hm : f ∈ l <;> simp [hg, hm, Dict.get?_set]
          · simp [e, Dict.get?_set, Ne.symm e]
  obtain ⟨h1, h2⟩ := this r.allRequestedFields [] Dict.WF_nil
  refine ⟨h1, fun f v => ?_⟩
  rw [extractResponse]
  simp only
  rw [h2]
  have hw : wanted r f ≠ none ↔ f ∈ r.allRequestedFields := by
    rw [Ne, wanted_none, Request.allRequestedFields, List.mem_append]
    by_cases a : f ∈ r.required <;> by_cases b : f ∈ r.optional <;> simp [a, b]
  rw [hw]
  simp [Dict.get?_nil]

example : (extractResponse { required := [t!"email"], optional := [t!"dob"] }
    [(t!"dob", none), (t!"email", some t!"a@b"), (t!"gender", some t!"x")]).data = [(t!"email", t!"a@b")] := by decide +kernel

theorem pickFields_get (args : Dict Str Str) :
    Dict.WF (pickFields args) ∧ ∀ f v, (pickFields args).get? f = some v ↔ f ∈ sregFields ∧ args.get? f = some v := by
  have : ∀ (l : List Str) (d : Dict Str Str), Dict.WF d → Dict.WF (l.foldl (takeField args) d) ∧
      ∀ f v, (l.foldl (takeField args) d).get? f = some v ↔
        (f ∈ l ∧ args.get? f = some v) ∨ (¬ (f ∈ l ∧ ∃ w, args.get? f = some w) ∧ d.get? f = some v) := by
    intro l
    induction l with
    | nil => intro d hd; simp [hd]
    | cons g l ih =>
      intro d hd
      rw [List.foldl_cons, takeField]
      cases hg : args.get? g with
      | none =>
        simp only
        refine ⟨(ih d hd).1, fun f v => ?_⟩
        rw [(ih d hd).2]
        by_cases e : f = g
        · subst e; simp [hg]
        · simp [e]
      | some w =>
        simp only
        refine ⟨(ih _ (Dict.WF_set d hd g w)).1, fun f v => ?_⟩
        rw [(ih _ (Dict.WF_set d hd g w)).2]
        by_cases e : f = g
        · subst e
          by_cases hm : f ∈ l <;> simp [hg, hm, Dict.get?_set]
        · simp [e, Dict.get?_set, Ne.symm e]
  obtain ⟨h1, h2⟩ := this dataFields [] Dict.WF_nil
  refine ⟨h1, fun f v => ?_⟩
  rw [pickFields, h2, mem_dataFields]
  simp [Dict.get?_nil]

theorem sreg_namespace (reg : Dict Str Str) (m : Msg) (hm : Built reg m) :
    (m.namespaces.getAlias nsUri11 ≠ none ∧ getSRegNS m = .ok (m, nsUri11)) ∨
    (m.namespaces.getAlias nsUri11 = none ∧ m.namespaces.getAlias nsUri10 ≠ none ∧ getSRegNS m = .ok (m, nsUri10)) ∨
    (m.namespaces.getAlias nsUri11 = none ∧ m.namespaces.getAlias nsUri10 = none ∧
      m.namespaces.getNamespaceURI (.name t!"sreg") = none ∧ ∃ m', getSRegNS m = .ok (m', nsUri11) ∧ m'.args = m.args ∧
        m'.namespaces.getAlias nsUri11 = some (.name t!"sreg") ∧
        (∀ u, u ≠ nsUri11 → m'.namespaces.getAlias u = m.namespaces.getAlias u) ∧
        ∀ k, m'.getArg (.uri nsUri11) k = .ok none) ∨
    (m.namespaces.getAlias nsUri11 = none ∧ m.namespaces.getAlias nsUri10 = none ∧
      m.namespaces.getNamespaceURI (.name t!"sreg") ≠ none ∧ getSRegNS m = .error .valueError) := by
  have hi := minv_built reg m hm
  rw [getSRegNS]
  cases h1 : m.namespaces.getAlias nsUri11 with
  | some a => left; simp
  | none =>
    right
    cases h0 : m.namespaces.getAlias nsUri10 with
    | some a => left; simp
    | none =>
      right
      simp only [Option.isSome_none, Bool.false_eq_true, if_false]
      have himp : nsUri11 ∉ m.namespaces.implicit := fun h => by
        have := hi.ns.imp _ h
        rw [NamespaceMap.getAlias] at h1
        rw [h1] at this; cases this
      cases hs : m.namespaces.getNamespaceURI (.name t!"sreg") with
      | none =>
        left
        have hadd := NamespaceMap.addAlias_of m.namespaces nsUri11 (.name t!"sreg") false (by decide) (.inl hs) (.inl h1) himp
        refine ⟨trivial, trivial, rfl, ?_⟩
        rw [declareSReg, hadd]
        refine ⟨_, rfl, rfl, by simp [NamespaceMap.getAlias, Dict.get?_set], ?_, ?_⟩
        · intro u hu
          simp [NamespaceMap.getAlias, Dict.get?_set, Ne.symm hu]
        · intro k
          have : m.args.get? (.uri nsUri11, k) = none := by
            cases hx : m.args.get? (.uri nsUri11, k) with
            | none => rfl
            | some v =>
              have := hi.known nsUri11 k ((Dict.mem_keys_iff _ _).2 (by rw [hx]; rfl))
              rw [NamespaceMap.getAlias] at h1
              rw [h1] at this; cases this
          have hf : ∀ m : Msg, m.fixNS (.uri nsUri11) = .ok (.uri nsUri11) := fun m => by
            simp only [Msg.fixNS]; rfl
          rw [Msg.getArg, hf]
          simp [this]
      | some u =>
        right
        refine ⟨trivial, trivial, by simp, ?_⟩
        have hu : u ≠ nsUri11 := by
          rintro rfl
          have := (hi.ns.bij _ _).1 hs
          rw [NamespaceMap.getAlias] at h1
          rw [h1] at this; cases this
        rw [NamespaceMap.getNamespaceURI] at hs
        have : m.namespaces.addAlias nsUri11 (.name t!"sreg") = .error .invalidNamespace := by
          rw [NamespaceMap.addAlias]
          rw [if_neg (by decide), if_pos]
          simp [NamespaceMap.differs, hs, hu]
        rw [declareSReg, this]
        rfl

/-- C46: Which namespace a message has for simple registration: 1.1 if it has that, else 1.0 if it has that; else 1.1 is
    added as `sreg`, unless another extension has that alias: then `ValueError` is raised. -/
theorem c46_namespace (reg : Dict Str Str) (m : Msg) (hm : Built reg m) :
    (m.namespaces.getAlias t!"http://openid.net/extensions/sreg/1.1" ≠ none ∧ getSRegNS m = .ok (m, t!"http://openid.net/extensions/sreg/1.1")) ∨
    (m.namespaces.getAlias t!"http://openid.net/extensions/sreg/1.1" = none ∧ m.namespaces.getAlias t!"http://openid.net/sreg/1.0" ≠ none ∧ getSRegNS m = .ok (m, t!"http://openid.net/sreg/1.0")) ∨
    (m.namespaces.getAlias t!"http://openid.net/extensions/sreg/1.1" = none ∧ m.namespaces.getAlias t!"http://openid.net/sreg/1.0" = none ∧
      m.namespaces.getNamespaceURI (.name t!"sreg") = none ∧ ∃ m', getSRegNS m = .ok (m', t!"http://openid.net/extensions/sreg/1.1") ∧ m'.args = m.args ∧
        m'.namespaces.getAlias t!"http://openid.net/extensions/sreg/1.1" = some (.name t!"sreg") ∧
        (∀ u, u ≠ t!"http://openid.net/extensions/sreg/1.1" → m'.namespaces.getAlias u = m.namespaces.getAlias u) ∧
        ∀ k, m'.getArg (.uri t!"http://openid.net/extensions/sreg/1.1") k = .ok none) ∨
    (m.namespaces.getAlias t!"http://openid.net/extensions/sreg/1.1" = none ∧ m.namespaces.getAlias t!"http://openid.net/sreg/1.0" = none ∧
      m.namespaces.getNamespaceURI (.name t!"sreg") ≠ none ∧ getSRegNS m = .error .valueError) := by
  apply sreg_namespace <;> assumption

theorem sreg_from_success {reg q : Dict Str Str} {m m' : Msg} (h : Arrived reg q m) {names : List Str} {signedOnly : Bool}
    {resp : Response}
    (hr : fromSuccessResponse m (names.map (t!"openid." ++ ·)) signedOnly = .ok (m', some resp)) :
    m' = m ∧ (resp.nsUri = nsUri11 ∨ resp.nsUri = nsUri10 ∧ m.namespaces.getAlias nsUri11 = none) ∧
    (∀ f v, resp.data.get? f = some v ↔ f ∈ sregFields ∧ m.getArg (.uri resp.nsUri) f = .ok (some v)) ∧
    (signedOnly = true → ∀ k v, m.getArg (.uri resp.nsUri) k = .ok (some v) →
      ∃ n ∈ names, m.getKey (.uri resp.nsUri) k = .ok (some (t!"openid." ++ n)) ∧ q.get? (t!"openid." ++ n) = some v) := by
  have hb : Built reg m := .parsed q m h.parsed
  rw [fromSuccessResponse] at hr
  obtain ⟨⟨m1, ns⟩, h1, hr⟩ := bind_eq_ok.1 hr
  simp only at hr
  obtain ⟨args, h2, hr⟩ := bind_eq_ok.1 hr
  simp only [pure_eq_ok, Except.ok.injEq, Prod.mk.injEq] at hr
  obtain ⟨rfl, hresp⟩ := hr
  obtain ⟨d, hd, hne, hdata, hns⟩ : ∃ d, args = some d ∧ d ≠ [] ∧ resp.data = pickFields d ∧ resp.nsUri = ns := by
    unfold responseOf at hresp
    split at hresp
    · next p ps =>
      simp at hresp
      exact ⟨_, rfl, by simp, by rw [← hresp], by rw [← hresp]⟩
    · cases hresp
  subst hd
  subst hns
  -- the arguments are those of the namespace
  have hargs : ∀ M : Msg, Consumer.extensionResponse M (names.map (t!"openid." ++ ·)) (.uri resp.nsUri) signedOnly = .ok (some d) →
      M.getArgs (.uri resp.nsUri) = .ok d := by
    intro M hM
    rw [Consumer.extensionResponse] at hM
    split at hM
    · rw [Consumer.getSignedNS] at hM
      obtain ⟨a, g1, hM⟩ := bind_eq_ok.1 hM
      obtain ⟨b, g2, hM⟩ := bind_eq_ok.1 hM
      split at hM
      · simp at hM; rw [← hM]; exact g1
      · simp at hM
    · obtain ⟨a, g1, hM⟩ := bind_eq_ok.1 hM
      simp at hM; rw [← hM]; exact g1
  have hsame : m1 = m ∧ (resp.nsUri = nsUri11 ∨ resp.nsUri = nsUri10 ∧ m.namespaces.getAlias nsUri11 = none) := by
    rcases sreg_namespace reg m hb with ⟨-, g⟩ | ⟨g1, -, g⟩ | ⟨-, -, -, m2, g, g1, -, -, g2⟩ | ⟨-, -, -, g⟩
    · rw [h1] at g
      simp only [Except.ok.injEq, Prod.mk.injEq] at g
      exact ⟨g.1, .inl g.2⟩
    · rw [h1] at g
      simp only [Except.ok.injEq, Prod.mk.injEq] at g
      exact ⟨g.1, .inr ⟨g.2, g1⟩⟩
    · exfalso
      rw [h1] at g
      simp only [Except.ok.injEq, Prod.mk.injEq] at g
      obtain ⟨rfl, g⟩ := g
      have hga := hargs _ h2
      rw [g] at hga
      have hfix : m1.fixNS (.uri nsUri11) = .ok (.uri nsUri11) := by simp only [Msg.fixNS]; rfl
      apply hne
      rw [Msg.getArgs, hfix] at hga
      simp only [ok_bind, pure_eq_ok, Except.ok.injEq] at hga
      rw [← hga]
      have : ∀ p ∈ m1.args, (if p.1.1 = NsKey.uri nsUri11 then some (p.1.2, p.2) else none) = none := by
        intro p hp
        rw [if_neg]
        intro e
        have hk := g2 p.1.2
        rw [Msg.getArg, hfix] at hk
        simp only [ok_bind, pure_eq_ok, Except.ok.injEq] at hk
        have hmem : (NsKey.uri nsUri11, p.1.2) ∈ Dict.keys m1.args := by
          rw [← e]
          exact List.mem_map.2 ⟨p, hp, rfl⟩
        rw [Dict.mem_keys_iff, hk] at hmem
        cases hmem
      rw [List.filterMap_eq_nil_iff.2 this]
      rfl
    · rw [h1] at g; cases g
  obtain ⟨rfl, hns⟩ := hsame
  refine ⟨rfl, hns, ?_, ?_⟩
  · obtain ⟨-, hg⟩ := c09_getArgs reg m1 hb _ d (hargs _ h2)
    intro f v
    rw [hdata, (pickFields_get d).2, hg f]
    simp
  · intro hs k v hk
    subst hs
    obtain ⟨-, g1, g2⟩ := c39_extensionResponse_signed h names _ d h2
    rw [g1 k] at hk
    obtain ⟨f, hf, g3, g4, -⟩ := g2 k v (by simpa using hk)
    exact ⟨f, hf, g3, g4⟩

/-- C46: A simple registration response from a provider's reply: the values of the known fields in the namespace that the
    reply has for simple registration; when only signed values are wanted, every value in the namespace was signed. -/
theorem c46_from_success {reg q : Dict Str Str} {m m' : Msg} (h : Arrived reg q m) {names : List Str} {signedOnly : Bool}
    {resp : Response}
    (hr : fromSuccessResponse m (names.map (t!"openid." ++ ·)) signedOnly = .ok (m', some resp)) :
    m' = m ∧ (resp.nsUri = t!"http://openid.net/extensions/sreg/1.1" ∨ resp.nsUri = t!"http://openid.net/sreg/1.0" ∧ m.namespaces.getAlias t!"http://openid.net/extensions/sreg/1.1" = none) ∧
    (∀ f v, resp.data.get? f = some v ↔ f ∈ sregFields ∧ m.getArg (.uri resp.nsUri) f = .ok (some v)) ∧
    (signedOnly = true → ∀ k v, m.getArg (.uri resp.nsUri) k = .ok (some v) →
      ∃ n ∈ names, m.getKey (.uri resp.nsUri) k = .ok (some (t!"openid." ++ n)) ∧ q.get? (t!"openid." ++ n) = some v) := by
  apply sreg_from_success <;> assumption

theorem sreg_request_arrives {reg0 reg : Dict Str Str} {m : Msg} {oid : Str} (hm : Built reg0 m) (h : Sendable reg m oid)
    (hs : m.namespaces.getNamespaceURI (.name t!"sreg") = none)
    (h11 : m.namespaces.getAlias nsUri11 = none) (h10 : m.namespaces.getAlias nsUri10 = none)
    (r : Request) (hr : Proper r)
    (hns : r.nsUri = nsUri11 ∧ (m.isOpenID1 = true → reg.get? t!"sreg" = some nsUri11) ∨
      r.nsUri = nsUri10 ∧ m.isOpenID1 = false) :
    ∃ m1, m.addExtension r.nsUri t!"sreg" r.getExtensionArgs = .ok m1 ∧ ∀ q, Dict.WF q →
      (∀ k, q.get? (t!"openid." ++ k) = m1.toPostArgs.get? (t!"openid." ++ k)) →
      ∃ m', fromPostArgs reg q = .ok m' ∧ fromOpenIDRequest m' = .ok { r with policyUrl := policyOf r.policyUrl } := by
  have hu : m.namespaces.getAlias r.nsUri = none := by rcases hns with ⟨e, -⟩ | ⟨e, -⟩ <;> rw [e] <;> assumption
  obtain ⟨m1, e1, e2⟩ := c62_arrives (uri := r.nsUri) (alias := t!"sreg") hm h (getExtensionArgs_get r).2.2.2
    (by rcases hns with ⟨e, -⟩ | ⟨e, -⟩ <;> rw [e] <;> decide) (by decide) hu hs
    (by
      intro h1
      rcases hns with ⟨e, g⟩ | ⟨e, g⟩
      · rw [e]; exact g h1
      · rw [g] at h1; cases h1)
  refine ⟨m1, e1, fun q hq hsent => ?_⟩
  obtain ⟨m', d, f1, f2, f3, f4, f5, f6, f7, f8, f9⟩ := e2 q hq hsent
  refine ⟨m', f1, ?_⟩
  have hb : Built reg m' := .parsed q m' f1
  have hrt := c46_round_trip r hr
  -- whichever namespace is found, its arguments are those sent
  have key : ∃ M, getSRegNS m' = .ok (M, r.nsUri) ∧ ∃ d, M.getArgs (.uri r.nsUri) = .ok d ∧ Dict.Same d r.getExtensionArgs := by
    rcases hns with ⟨e, -⟩ | ⟨e, ho⟩
    · rcases sreg_namespace reg m' hb with ⟨g1, g2⟩ | ⟨g1, g2, g3⟩ | ⟨g1, g2, g3, M, g4, -, g5, -, g6⟩ | ⟨g1, g2, g3, g4⟩
      · exact ⟨m', by rw [e]; exact g2, d, f3, f5⟩
      · exact absurd (f8 nsUri10 (by rw [e]; decide) h10) g2
      · refine ⟨M, by rw [e]; exact g4, ?_⟩
        rcases f9 with f9 | ⟨-, -, -, f9⟩
        · rw [e, g1] at f9; cases f9
        · have hfix : M.fixNS (.uri nsUri11) = .ok (.uri nsUri11) := by simp only [Msg.fixNS]; rfl
          obtain ⟨d', hd'⟩ : ∃ d, M.getArgs (.uri nsUri11) = .ok d := by rw [Msg.getArgs, hfix]; exact ⟨_, rfl⟩
          rw [e]
          refine ⟨d', hd', fun k => ?_⟩
          have hwf : ∀ k, d'.get? k = none := by
            intro k
            cases hx : d'.get? k with
            | none => rfl
            | some v =>
              exfalso
              rw [Msg.getArgs, hfix] at hd'
              simp only [ok_bind, pure_eq_ok, Except.ok.injEq] at hd'
              rw [← hd', Association.get?_ofPairs] at hx
              have hmem := List.mem_reverse.1 (Dict.get?_mem _ _ _ hx)
              obtain ⟨p, hp1, hp2⟩ := List.mem_filterMap.1 hmem
              split at hp2
              · next he =>
                have hg := g6 p.1.2
                rw [Msg.getArg, hfix] at hg
                simp only [ok_bind, pure_eq_ok, Except.ok.injEq] at hg
                have hmem : (NsKey.uri nsUri11, p.1.2) ∈ Dict.keys M.args := by
                  rw [← he]
                  exact List.mem_map.2 ⟨p, hp1, rfl⟩
                rw [Dict.mem_keys_iff, hg] at hmem
                cases hmem
              · cases hp2
          rw [hwf k, f9 k]
      · rcases f9 with f9 | ⟨-, f9, -⟩
        · rw [e, g1] at f9; cases f9
        · exact absurd f9 g3
    · have h11' := f8 nsUri11 (by rw [e]; decide) h11
      have h10' : m'.namespaces.getAlias nsUri10 ≠ none := by
        rcases f9 with f9 | ⟨-, -, f9, -⟩
        · rw [← e, f9]; simp
        · rw [ho] at f9; cases f9
      rcases sreg_namespace reg m' hb with ⟨g1, -⟩ | ⟨-, -, g3⟩ | ⟨-, g2, -⟩ | ⟨-, g2, -⟩
      · exact absurd h11' g1
      · exact ⟨m', by rw [e]; exact g3, d, f3, f5⟩
      · exact absurd g2 h10'
      · exact absurd g2 h10'
  obtain ⟨M, k1, d', k2, k3⟩ := key
  rw [fromOpenIDRequest, k1]
  simp only [ok_bind]
  rw [k2]
  simp only [ok_bind]
  rw [hrt d' k3 false]
  rfl

/-- C46: A request of simple registration that is added to a message is the request that the receiver makes of what is sent
    of the message: in OpenID 2 with either namespace, in OpenID 1 with 1.1. -/
theorem c46_request_arrives {reg0 reg : Dict Str Str} {m : Msg} {oid : Str} (hm : Built reg0 m) (h : Sendable reg m oid)
    (hs : m.namespaces.getNamespaceURI (.name t!"sreg") = none)
    (h11 : m.namespaces.getAlias t!"http://openid.net/extensions/sreg/1.1" = none) (h10 : m.namespaces.getAlias t!"http://openid.net/sreg/1.0" = none)
    (r : Request) (hr : Proper r)
    (hns : r.nsUri = t!"http://openid.net/extensions/sreg/1.1" ∧ (m.isOpenID1 = true → reg.get? t!"sreg" = some t!"http://openid.net/extensions/sreg/1.1") ∨
      r.nsUri = t!"http://openid.net/sreg/1.0" ∧ m.isOpenID1 = false) :
    ∃ m1, m.addExtension r.nsUri t!"sreg" r.getExtensionArgs = .ok m1 ∧ ∀ q, Dict.WF q →
      (∀ k, q.get? (t!"openid." ++ k) = m1.toPostArgs.get? (t!"openid." ++ k)) →
      ∃ m', fromPostArgs reg q = .ok m' ∧ fromOpenIDRequest m' = .ok { r with policyUrl := policyOf r.policyUrl } := by
  apply sreg_request_arrives <;> assumption

theorem allSigned_all {m : Msg} {signed : List Str} {ns : Ns} {l : List Str}
    (h : ∀ k ∈ l, Consumer.isSigned m signed ns k = .ok true) : Consumer.allSigned m signed ns l = .ok true := by
  induction l with
  | nil => rfl
  | cons k l ih =>
    rw [Consumer.allSigned, h k (by simp)]
    exact ih fun k hk => h k (by simp [hk])

theorem sreg_response_arrives {reg0 reg : Dict Str Str} {m : Msg} {oid : Str} (hm : Built reg0 m) (h : Sendable reg m oid)
    (hs : m.namespaces.getNamespaceURI (.name t!"sreg") = none)
    (h11 : m.namespaces.getAlias nsUri11 = none) (h10 : m.namespaces.getAlias nsUri10 = none)
    (resp : Response) (hw : Dict.WF resp.data) (hne : resp.data ≠ []) (hd : ∀ f v, resp.data.get? f = some v → f ∈ sregFields)
    (hns : resp.nsUri = nsUri11 ∧ (m.isOpenID1 = true → reg.get? t!"sreg" = some nsUri11) ∨
      resp.nsUri = nsUri10 ∧ m.isOpenID1 = false) :
    ∃ m1, m.addExtension resp.nsUri t!"sreg" resp.getExtensionArgs = .ok m1 ∧ ∀ q signed signedOnly, Dict.WF q →
      (∀ k, q.get? (t!"openid." ++ k) = m1.toPostArgs.get? (t!"openid." ++ k)) →
      (∀ f v, resp.data.get? f = some v → (t!"openid.sreg." ++ f) ∈ signed) →
      ∃ m' d, fromPostArgs reg q = .ok m' ∧ fromSuccessResponse m' signed signedOnly = .ok (m', some ⟨d, resp.nsUri⟩) ∧
        Dict.Same d resp.data := by
  have hu : m.namespaces.getAlias resp.nsUri = none := by rcases hns with ⟨e, -⟩ | ⟨e, -⟩ <;> rw [e] <;> assumption
  obtain ⟨m1, e1, e2⟩ := c62_arrives (uri := resp.nsUri) (alias := t!"sreg") hm h (show Dict.WF resp.getExtensionArgs from hw)
    (by rcases hns with ⟨e, -⟩ | ⟨e, -⟩ <;> rw [e] <;> decide) (by decide) hu hs
    (by
      intro h1
      rcases hns with ⟨e, g⟩ | ⟨e, g⟩
      · rw [e]; exact g h1
      · rw [g] at h1; cases h1)
  refine ⟨m1, e1, fun q signed signedOnly hq hsent hsigned => ?_⟩
  obtain ⟨m', d, f1, f2, f3, f4, f5, f6, f7, f8, f9⟩ := e2 q hq hsent
  have hb : Built reg m' := .parsed q m' f1
  obtain ⟨⟨k0, v0⟩, rest, hcons⟩ := List.exists_cons_of_ne_nil hne
  have h0 : resp.data.get? k0 = some v0 := by rw [hcons]; simp [Dict.get?_cons]
  have halias : m'.namespaces.getAlias resp.nsUri ≠ none := by
    rcases f9 with f9 | ⟨-, -, -, f9⟩
    · rw [f9]; simp
    · have := f9 k0
      rw [Response.getExtensionArgs, h0] at this; cases this
  have hsr : getSRegNS m' = .ok (m', resp.nsUri) := by
    rcases hns with ⟨e, -⟩ | ⟨e, ho⟩
    · rcases sreg_namespace reg m' hb with ⟨g1, g2⟩ | ⟨g1, -⟩ | ⟨g1, -⟩ | ⟨g1, -⟩
      · rw [e]; exact g2
      all_goals exact absurd (e ▸ g1) halias
    · have h11' := f8 nsUri11 (by rw [e]; decide) h11
      rcases sreg_namespace reg m' hb with ⟨g1, -⟩ | ⟨-, -, g3⟩ | ⟨-, g2, -⟩ | ⟨-, g2, -⟩
      · exact absurd h11' g1
      · rw [e]; exact g3
      · exact absurd (e ▸ g2) halias
      · exact absurd (e ▸ g2) halias
  have hext : Consumer.extensionResponse m' signed (.uri resp.nsUri) signedOnly = .ok (some d) := by
    rw [Consumer.extensionResponse]
    cases signedOnly with
    | false => simp [f3]
    | true =>
      rw [if_pos rfl, Consumer.getSignedNS, f3]
      simp only [ok_bind]
      rw [allSigned_all]
      · rfl
      · intro k hk
        rw [Dict.mem_keys_iff, f5 k] at hk
        obtain ⟨v, hv⟩ := Option.isSome_iff_exists.1 hk
        rw [Consumer.isSigned, f7 k v hv]
        simp only [ok_bind, pure_eq_ok, Except.ok.injEq, List.contains_iff_mem]
        exact hsigned k v hv
  obtain ⟨p, ps, hdc⟩ : ∃ p ps, d = p :: ps := by
    cases d with
    | nil => have := f5 k0; rw [Response.getExtensionArgs, h0] at this; cases this
    | cons p ps => exact ⟨p, ps, rfl⟩
  refine ⟨m', pickFields d, f1, ?_, ?_⟩
  · rw [fromSuccessResponse, hsr]
    simp only [ok_bind]
    rw [hext, hdc]
    rfl
  · intro f
    cases hx : resp.data.get? f with
    | some v =>
      rw [(pickFields_get d).2]
      exact ⟨hd f v hx, by rw [f5 f]; exact hx⟩
    | none =>
      cases hy : (pickFields d).get? f with
      | none => rfl
      | some v =>
        have := ((pickFields_get d).2 f v).1 hy
        rw [f5 f, Response.getExtensionArgs, hx] at this
        cases this.2

/-- C46: A response of simple registration that is added to a message, where every value is signed, is the response that
    the receiver makes of the message. -/
theorem c46_response_arrives {reg0 reg : Dict Str Str} {m : Msg} {oid : Str} (hm : Built reg0 m) (h : Sendable reg m oid)
    (hs : m.namespaces.getNamespaceURI (.name t!"sreg") = none)
    (h11 : m.namespaces.getAlias t!"http://openid.net/extensions/sreg/1.1" = none) (h10 : m.namespaces.getAlias t!"http://openid.net/sreg/1.0" = none)
    (resp : Response) (hw : Dict.WF resp.data) (hne : resp.data ≠ []) (hd : ∀ f v, resp.data.get? f = some v → f ∈ sregFields)
    (hns : resp.nsUri = t!"http://openid.net/extensions/sreg/1.1" ∧ (m.isOpenID1 = true → reg.get? t!"sreg" = some t!"http://openid.net/extensions/sreg/1.1") ∨
      resp.nsUri = t!"http://openid.net/sreg/1.0" ∧ m.isOpenID1 = false) :
    ∃ m1, m.addExtension resp.nsUri t!"sreg" resp.getExtensionArgs = .ok m1 ∧ ∀ q signed signedOnly, Dict.WF q →
      (∀ k, q.get? (t!"openid." ++ k) = m1.toPostArgs.get? (t!"openid." ++ k)) →
      (∀ f v, resp.data.get? f = some v → (t!"openid.sreg." ++ f) ∈ signed) →
      ∃ m' d, fromPostArgs reg q = .ok m' ∧ fromSuccessResponse m' signed signedOnly = .ok (m', some ⟨d, resp.nsUri⟩) ∧
        Dict.Same d resp.data := by
  apply sreg_response_arrives <;> assumption

/-- C46: What a response says of a field; a name that is no field of simple registration raises `ValueError`. -/
theorem c46_get (r : Response) (f : Str) :
    (f ∈ sregFields → r.get f = .ok (r.data.get? f) ∧ r.contains f = .ok (r.data.get? f).isSome ∧
      r.getItem f = match r.data.get? f with
        | some v => .ok v
        | none => .error .keyError) ∧
    (f ∉ sregFields → r.get f = .error .valueError ∧ r.contains f = .error .valueError ∧ r.getItem f = .error .valueError) := by
  constructor
  · intro hf
    have hc : checkFieldName f = .ok () := by
      rw [checkFieldName, if_pos]
      exact List.contains_iff_mem.2 ((mem_dataFields f).2 hf)
    simp only [Response.get, Response.contains, Response.getItem, hc, ok_bind, pure_eq_ok, Dict.has, true_and]
    cases r.data.get? f <;> rfl
  · intro hf
    have hc : checkFieldName f = .error .valueError := by
      rw [checkFieldName, if_neg]
      intro h
      exact hf ((mem_dataFields f).1 (List.contains_iff_mem.1 h))
    simp [Response.get, Response.contains, Response.getItem, hc]

/-! the request and the response of one exchange, in OpenID 2 with 1.0 and in OpenID 1 with 1.1 -/

def sregReq0 : Request := { required := [t!"email"], optional := [t!"dob"], policyUrl := some t!"http://rp/policy", nsUri := nsUri10 }

example : (((Msg.new (some OPENID2_NS)).toOption.bind fun m =>
    (m.addExtension sregReq0.nsUri t!"sreg" sregReq0.getExtensionArgs).toOption).bind fun m =>
      (fromPostArgs libReg m.toPostArgs).toOption.bind fun m => (fromOpenIDRequest m).toOption) = some sregReq0 := by
  decide +kernel

example : (((Msg.new (some OPENID1_NS)).toOption.bind fun m =>
    (m.addExtension nsUri11 t!"sreg" [(t!"dob", t!"2000-01-01")]).toOption).bind fun m =>
      (fromPostArgs libReg m.toPostArgs).toOption.bind fun m =>
        ((fromSuccessResponse m [t!"openid.sreg.dob"] true).toOption.map (·.2))) =
    some (some { data := [(t!"dob", t!"2000-01-01")] }) := by
  decide +kernel

/-- a value that is not signed -/
example : (((Msg.new (some OPENID1_NS)).toOption.bind fun m =>
    (m.addExtension nsUri11 t!"sreg" [(t!"dob", t!"2000-01-01"), (t!"email", t!"a@b")]).toOption).bind fun m =>
      (fromPostArgs libReg m.toPostArgs).toOption.bind fun m =>
        ((fromSuccessResponse m [t!"openid.sreg.dob"] true).toOption.map (·.2))) = some none := by
  decide +kernel

/-- another extension has the alias -/
example : ((fromPostArgs libReg [(t!"openid.ns", OPENID2_NS), (t!"openid.ns.sreg", t!"http://a/")]).toOption.map fun m =>
    getSRegNS m) = some (.error .valueError) := by decide +kernel

end Props
