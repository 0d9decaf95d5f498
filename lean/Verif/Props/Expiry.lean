import Verif.Props.NonceRead
import Verif.Props.Filters
import Verif.Spec.Expiry
/-! # C85: when an XRD expires, and the services of a list -/

namespace Props
open Py Xml Spec

theorem findall_expires (xrd : Elem) : xrd.findall Etxrd.expiresTag = expiresElems xrd := rfl

/-- **C85** without an `Expires` child the answer is the default. -/
theorem c85_default (X : ExtraDigits) (xrd : Elem) (default : Option Nonce.Tm)
    (h : ∀ e ∈ xrd.children, e.tag ≠ t!"{xri://$xrd*($v*2.0)}Expires") :
    Etxrd.getXRDExpiration X xrd default = .ok default := by
  have : expiresElems xrd = [] := by
    rw [expiresElems, List.filter_eq_nil_iff]
    intro e he; simpa using h e he
  rw [Etxrd.getXRDExpiration, findall_expires, this]; rfl

/-- **C85** the first `Expires` child, when its text is a time, is the answer, whatever the default. -/
theorem c85_reads (X : ExtraDigits) (xrd e : Elem) (default : Option Nonce.Tm) (rest : List Elem) (text : Str) (d : Date)
    (h mi s : Nat) (he : expiresElems xrd = e :: rest) (ht : e.text = some text)
    (hm : IsNonceTime (fun _ => none) text d h mi s) (hs : s < 60) :
    Etxrd.getXRDExpiration X xrd default = .ok (some ⟨d.1, d.2.1, d.2.2, h, mi, s⟩) := by
  have hr := strptime_reads X hm
  rw [Etxrd.getXRDExpiration, findall_expires, he, List.head?_cons]
  simp only [ht, hr, ok_bind]
  rw [Etxrd.toDatetime, if_pos (by simp only; omega)]
  rfl

/-- **C85** every second from 1970 to 9999, written in the canonical form, is read as itself. -/
theorem c85_written (X : ExtraDigits) (xrd e : Elem) (default : Option Nonce.Tm) (rest : List Elem) (n s : Nat)
    (hn : n < 2932897) (hs : s < 86400) (he : expiresElems xrd = e :: rest) (ht : e.text = some (isoTime n s)) :
    Etxrd.getXRDExpiration X xrd default =
      .ok (some ⟨(dateAfter n).1, (dateAfter n).2.1, (dateAfter n).2.2, s / 3600, s / 60 % 60, s % 60⟩) := by
  obtain ⟨d, hd, -, g1, g2, g3, g4, g8, g9⟩ := date_spec (86400 * n + s)
  have e1 : (86400 * n + s) / 86400 = n := by omega
  rw [e1] at hd
  have g9 := g9 (by omega)
  have hdm := Nonce.daysInMonth_le (Nonce.isLeap d.1) d.2.1
  obtain ⟨t, et⟩ : ∃ t : Nonce.Tm, t = ⟨d.1, d.2.1, d.2.2, s / 3600, s / 60 % 60, s % 60⟩ := ⟨_, rfl⟩
  have hi : isoTime n s = Nonce.strftime t := by
    subst et
    rw [isoTime, hd, Nonce.strftime]
    simp only [pad2_eq, year_eq d.1 (by omega) g9]
  have hm := Nonce.matchTime_strftime X t (by rw [et]; simp only; omega) (by rw [et]; exact g9) (by rw [et]; exact g1)
    (by rw [et]; exact g2) (by rw [et]; exact g3) (by rw [et]; simp only; omega) (by rw [et]; simp only; omega)
    (by rw [et]; simp only; omega) (by rw [et]; simp only; omega)
  have hv : Nonce.validDate t.year t.month t.day = true := by
    rw [et]; simp only [Nonce.validDate, decide_eq_true_eq]; omega
  rw [Etxrd.getXRDExpiration, findall_expires, he, List.head?_cons]
  simp only [ht, hi, Nonce.strptime, hm, hv, if_true, ok_bind, hd]
  rw [Etxrd.toDatetime, if_pos (by rw [et]; simp only; omega), et]
  rfl

/-- **C85** whatever is answered is the default, when there is no `Expires` child, and otherwise the time the first one
    has as its text. -/
theorem c85_only (X : ExtraDigits) (hX : ∀ c n, X c = some n → n ≤ 9) (xrd : Elem) (default r : Option Nonce.Tm)
    (h : Etxrd.getXRDExpiration X xrd default = .ok r) :
    (r = default ∧ ∀ e ∈ xrd.children, e.tag ≠ t!"{xri://$xrd*($v*2.0)}Expires") ∨
    ∃ e rest text t, expiresElems xrd = e :: rest ∧ e.text = some text ∧ r = some t ∧
      IsNonceTime X text (t.year, t.month, t.day) t.hour t.min t.sec ∧ t.sec < 60 := by
  rw [Etxrd.getXRDExpiration, findall_expires] at h
  cases hl : expiresElems xrd with
  | nil =>
    rw [hl] at h
    refine .inl ⟨(Except.ok.inj h).symm, fun e he ht => ?_⟩
    rw [expiresElems, List.filter_eq_nil_iff] at hl
    exact hl e he (by simpa using ht)
  | cons e rest =>
    rw [hl, List.head?_cons] at h
    right
    cases ht : e.text with
    | none => simp only [ht] at h; simp at h
    | some text =>
      simp only [ht] at h
      obtain ⟨t, h1, h⟩ := bind_eq_ok.1 h
      obtain ⟨t', h2, h⟩ := bind_eq_ok.1 h
      rw [Etxrd.toDatetime] at h2
      split at h2
      · next hs =>
        obtain rfl := Except.ok.inj h2
        exact ⟨e, rest, text, t, rfl, ht, (Except.ok.inj h).symm, matchTime_read hX h1, by omega⟩
      · simp at h2

/-- **C85** a refusal is a `ValueError`, except that an `Expires` element without text is a `TypeError`. -/
theorem c85_errors (X : ExtraDigits) (xrd : Elem) (default : Option Nonce.Tm) (x : PyErr)
    (h : Etxrd.getXRDExpiration X xrd default = .error x) :
    ∃ e rest, expiresElems xrd = e :: rest ∧
      ((e.text = none ∧ x = .typeError) ∨ (e.text ≠ none ∧ x = .valueError)) := by
  rw [Etxrd.getXRDExpiration, findall_expires] at h
  cases hl : expiresElems xrd with
  | nil => rw [hl] at h; simp at h
  | cons e rest =>
    rw [hl, List.head?_cons] at h
    refine ⟨e, rest, rfl, ?_⟩
    cases ht : e.text with
    | none => simp only [ht] at h; exact .inl ⟨rfl, (Except.error.inj h).symm⟩
    | some text =>
      refine .inr ⟨by simp, ?_⟩
      simp only [ht] at h
      rcases bind_eq_error.1 h with h | ⟨t, -, h⟩
      · rw [Nonce.strptime] at h
        split at h
        · split at h
          · simp at h
          · exact (Except.error.inj h).symm
        · exact (Except.error.inj h).symm
      · rcases bind_eq_error.1 h with h | ⟨t', -, h⟩
        · rw [Etxrd.toDatetime] at h
          split at h
          · simp at h
          · exact (Except.error.inj h).symm
        · simp at h

/-- an XRD that expires at the end of 2008, with the leap second of that day, or without -/
def expiring (text : Option Str) : Elem :=
  .mk t!"{xri://$xrd*($v*2.0)}XRD" [] none [.mk t!"{xri://$xrd*($v*2.0)}Service" [] none [],
    .mk t!"{xri://$xrd*($v*2.0)}Expires" [] text []]

example : Etxrd.getXRDExpiration (fun _ => none) (expiring (some t!"2008-12-31T23:59:59Z")) none =
      .ok (some ⟨2008, 12, 31, 23, 59, 59⟩) ∧
    Etxrd.getXRDExpiration (fun _ => none) (expiring (some t!"2008-12-31T23:59:60Z")) none = .error .valueError ∧
    Etxrd.getXRDExpiration (fun _ => none) (expiring none) none = .error .typeError := by decide +kernel

/-! ## The services of a list -/

/-- **C85** a list of services gives, service by service in the order of the list, its types with each of its URIs by
    priority (with none, if it has no URI); it fails only because of a `Type` element without text. -/
theorem c85_services (X : ExtraDigits) (l : List (Elem × (List Elem → List Elem)))
    (hs : ∀ p ∈ l, ∀ es, (p.2 es).Perm es) :
    (∃ uris, Each (fun p u => UrisOf X p.1 u) l uris ∧
      Etxrd.expandServices X l =
        .ok (((l.map (·.1)).zip uris).flatMap fun p => p.2.map fun u => (typesOf p.1, u, p.1))) ∨
    Etxrd.expandServices X l = .error .attributeError ∧
      ∃ p ∈ l, ∃ t ∈ p.1.children, t.tag = t!"{xri://$xrd*($v*2.0)}Type" ∧ t.text = none := by
  induction l with
  | nil => exact .inl ⟨[], .nil, rfl⟩
  | cons p l ih =>
    obtain ⟨e, shuffle⟩ := p
    rw [Etxrd.expandServices]
    rcases expandService_cases X shuffle (hs _ (List.mem_cons_self ..)) e with ⟨us, h1, h2⟩ | ⟨h2, h3⟩
    · rw [h2, ok_bind]
      rcases ih (fun p hp => hs p (List.mem_cons_of_mem _ hp)) with ⟨uris, k1, k2⟩ | ⟨k1, p, hp, k2⟩
      · refine .inl ⟨us :: uris, .cons h1 k1, ?_⟩
        rw [k2, ok_bind, pure_eq_ok]
        simp [List.map_map, Function.comp_def]
      · exact .inr ⟨by rw [k1]; rfl, p, List.mem_cons_of_mem _ hp, k2⟩
    · exact .inr ⟨by rw [h2]; rfl, _, List.mem_cons_self .., h3⟩

/-- Contrary to its documentation, a service without a URI is in the list, and so is one without a type. -/
example : ∃ l, Etxrd.expandServices (fun _ => none) [(.mk t!"{xri://$xrd*($v*2.0)}Service" [] none [], id),
      (.mk t!"{xri://$xrd*($v*2.0)}Service" [] none [.mk t!"{xri://$xrd*($v*2.0)}URI" [] (some t!"http://b/") [],
        .mk t!"{xri://$xrd*($v*2.0)}URI" [(t!"priority", t!"1")] (some t!"http://a/") [],
        .mk t!"{xri://$xrd*($v*2.0)}Type" [] (some t!"t") []], id)] = .ok l ∧
    l.map (fun p => (p.1, p.2.1)) = [([], none), ([t!"t"], some t!"http://a/"), ([t!"t"], some t!"http://b/")] :=
  ⟨_, rfl, by decide +kernel⟩

end Props
