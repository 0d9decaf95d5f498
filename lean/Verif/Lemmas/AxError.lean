import Verif.Lemmas.AxSend
/-! # Errors of attribute exchange -/

namespace Ax
open Py Message NamespaceMap Spec Association

theorem foldlM_error_inv {α β : Type} {f : β → α → Except PyErr β} (P : β → Prop) (hp : ∀ b x b', P b → f b x = .ok b' → P b')
    {l : List α} {b : β} (hb : P b) {e : PyErr} (h : l.foldlM f b = .error e) : ∃ x ∈ l, ∃ b', P b' ∧ f b' x = .error e := by
  induction l generalizing b with
  | nil => cases h
  | cons x l ih =>
    rw [List.foldlM_cons] at h
    rcases bind_eq_error.1 h with h | ⟨b', h1, h⟩
    · exact ⟨x, by simp, b, hb, h⟩
    · obtain ⟨y, hy, r⟩ := ih (hp b x b' hb h1) h
      exact ⟨y, by simp [hy], r⟩

theorem foldlM_ok_inv {α β : Type} {f : β → α → Except PyErr β} (P : β → Prop) (hp : ∀ b x b', P b → f b x = .ok b' → P b')
    {l : List α} {b b' : β} (hb : P b) (h : l.foldlM f b = .ok b') : P b' := by
  induction l generalizing b with
  | nil => cases h; exact hb
  | cons x l ih =>
    rw [List.foldlM_cons] at h
    obtain ⟨b1, h1, h⟩ := bind_eq_ok.1 h
    exact ih (hp b x b1 hb h1) h

theorem foldlM_ok_inv' {α β : Type} {f : β → α → Except PyErr β} (P : β → Prop) {l : List α}
    (hp : ∀ b, ∀ x ∈ l, ∀ b', P b → f b x = .ok b' → P b') {b b' : β} (hb : P b) (h : l.foldlM f b = .ok b') : P b' := by
  induction l generalizing b with
  | nil => cases h; exact hb
  | cons x l ih =>
    rw [List.foldlM_cons] at h
    obtain ⟨b1, h1, h⟩ := bind_eq_ok.1 h
    exact ih (fun b y hy => hp b y (by simp [hy])) (hp b x (by simp) b1 hb h1) h

theorem addAlias_error_good {m : NamespaceMap} (h : Good m) {u a : Str} {e : PyErr} (he : m.addAlias u (.name a) = .error e) :
    e = .invalidNamespace ∨ e = .assertionError ∧ ('.' ∈ a ∨ a ∈ OPENID_PROTOCOL_FIELDS) := by
  unfold addAlias at he
  simp only at he
  split at he
  · next hx =>
    cases he
    right
    refine ⟨rfl, ?_⟩
    simp only [Bool.not_and, Bool.not_not, Bool.or_eq_true, List.contains_iff_mem] at hx
    exact hx.symm
  · split at he
    · cases he; exact .inl rfl
    · split at he
      · cases he; exact .inl rfl
      · rw [h.imp] at he
        split at he
        · next hx => simp at hx
        · cases he

theorem checkMode_error {mode : Str} {args : Dict Str Str} {e : PyErr} (h : checkMode mode args = .error e) :
    args.get? t!"mode" ≠ some mode ∧
    (e = .notAXMessage ∧ (args.get? t!"mode" = none ∨ args.get? t!"mode" = some []) ∨
      e = .axError ∧ ∃ s, s ≠ [] ∧ args.get? t!"mode" = some s) := by
  unfold checkMode at h
  split at h
  · cases h
  · next hne =>
    refine ⟨hne, ?_⟩
    split at h
    · next hx => cases h; exact .inl ⟨rfl, hx⟩
    · next hx =>
      cases h
      right
      refine ⟨rfl, ?_⟩
      cases hg : args.get? t!"mode" with
      | none => exact absurd (.inl hg) hx
      | some s => exact ⟨s, fun e => hx (.inr (by rw [hg, e])), rfl⟩

theorem checkAlias_error {a : Str} {e : PyErr} (h : checkAlias a = .error e) : e = .axError := by
  unfold checkAlias at h
  split at h
  · cases h; rfl
  · split at h <;> cases h; rfl

theorem parseCount_error {X : ExtraDigits} {o : Option Str} {e : PyErr} (h : parseCount X o = .error e) : e = .axError := by
  unfold parseCount at h
  split at h
  · split at h
    · split at h <;> cases h; rfl
    · split at h <;> cases h; rfl
  · cases h

theorem typesOf_error {m : NamespaceMap} {l : List Str} {e : PyErr} (h : typesOf m l = .error e) : e = .keyError := by
  induction l with
  | nil => cases h
  | cons a l ih =>
    rw [typesOf] at h
    split at h
    · cases h; rfl
    · rcases bind_eq_error.1 h with h | ⟨x, -, h⟩
      · exact ih h
      · cases h

theorem toTypeURIs_error {m : NamespaceMap} {o : Option Str} {e : PyErr} (h : toTypeURIs m o = .error e) : e = .keyError := by
  unfold toTypeURIs at h
  split at h
  · exact typesOf_error h
  · cases h

theorem type_mem {args : Dict Str Str} (hw : Dict.WF args) {x : Str × Str} (hx : x ∈ args) (hs : startsWith x.1 t!"type." = true) :
    typeOf args (x.1.drop 5) = some x.2 := by
  rw [typeOf]
  have : t!"type." ++ x.1.drop 5 = x.1 := by
    obtain ⟨r, hr⟩ := (startsWith_iff _ _).1 hs
    rw [hr]; rfl
  rw [this]
  exact Dict.get?_of_mem _ hw _ _ hx

theorem attrNew_error {u : Str} {c : Count} {b : Bool} {a : Option Str} {e : PyErr} (h : AttrInfo.new u c b a = .error e) :
    e = .axError := by
  unfold AttrInfo.new at h
  cases a with
  | none => cases h
  | some a =>
    rcases bind_eq_error.1 h with h | ⟨x, -, h⟩
    · exact checkAlias_error h
    · cases h

/-- the kinds of errors of the parsing of a fetch request -/
theorem fetch_error {X : ExtraDigits} {args : Dict Str Str} (hw : Dict.WF args) {e : PyErr}
    (h : FetchRequest.parseExtensionArgs X {} args = .error e) :
    (e = .notAXMessage ∧ (args.get? t!"mode" = none ∨ args.get? t!"mode" = some [])) ∨
    ((∃ s, s ≠ [] ∧ args.get? t!"mode" = some s) ∧ (e = .axError ∨ e = .keyError ∨ e = .invalidNamespace ∨
      e = .assertionError ∧ ∃ a u, typeOf args a = some u ∧ ('.' ∈ a ∨ a ∈ OPENID_PROTOCOL_FIELDS))) := by
  rw [FetchRequest.parseExtensionArgs] at h
  rcases bind_eq_error.1 h with h | ⟨⟨⟩, h0, h⟩
  · rcases (checkMode_error h).2 with h | ⟨h1, h2⟩
    · exact .inl h
    · exact .inr ⟨h2, .inl h1⟩
  right
  refine ⟨⟨_, by decide, checkMode_ok.1 h0⟩, ?_⟩
  rcases bind_eq_error.1 h with h | ⟨⟨m, r⟩, h1, h⟩
  · obtain ⟨x, hx, s, hs, h⟩ := foldlM_error_inv (P := fun s : NamespaceMap × FetchRequest => Good s.1) (by
      intro s x s' hs h
      unfold FetchRequest.parseType at h
      split at h
      · obtain ⟨m, h1, h⟩ := bind_eq_ok.1 h
        obtain ⟨c, h2, h⟩ := bind_eq_ok.1 h
        obtain ⟨i, h3, h⟩ := bind_eq_ok.1 h
        obtain ⟨r, h4, h⟩ := bind_eq_ok.1 h
        cases h
        refine (addAlias_good hs ?_ h1).1
        unfold AttrInfo.new at h3
        obtain ⟨⟨⟩, h5, -⟩ := bind_eq_ok.1 h3
        exact (checkAlias_ok.1 h5).1
      · cases h; exact hs) good_empty h
    unfold FetchRequest.parseType at h
    split at h
    · next hst =>
      rcases bind_eq_error.1 h with h | ⟨m, h1, h⟩
      · rcases addAlias_error_good hs h with h | ⟨h, g⟩
        · exact .inr (.inr (.inl h))
        · exact .inr (.inr (.inr ⟨h, _, _, type_mem hw hx hst, g⟩))
      rcases bind_eq_error.1 h with h | ⟨c, h2, h⟩
      · exact .inl (parseCount_error h)
      rcases bind_eq_error.1 h with h | ⟨i, h3, h⟩
      · exact .inl (attrNew_error h)
      rcases bind_eq_error.1 h with h | ⟨r, h4, h⟩
      · unfold FetchRequest.add at h
        split at h <;> cases h
        exact .inr (.inl rfl)
      · cases h
    · cases h
  simp only at h
  rcases bind_eq_error.1 h with h | ⟨req, h2, h⟩
  · exact .inr (.inl (toTypeURIs_error h))
  rcases bind_eq_error.1 h with h | ⟨r', h3, h⟩
  · obtain ⟨x, -, s, -, h⟩ := foldlM_error_inv (fun _ => True) (by simp) trivial h
    unfold FetchRequest.setRequired at h
    split at h <;> cases h
    exact .inr (.inl rfl)
  rcases bind_eq_error.1 h with h | ⟨avail, h4, h⟩
  · exact .inr (.inl (toTypeURIs_error h))
  split at h
  · cases h
  · cases h; exact .inl rfl

theorem valuesFrom_error {args : Dict Str Str} {a : Str} {n : Nat} {i : Nat} {e : PyErr} (h : valuesFrom args a i n = .error e) :
    e = .keyError := by
  induction n generalizing i with
  | zero => cases h
  | succ n ih =>
    rw [valuesFrom] at h
    split at h
    · cases h; rfl
    · rcases bind_eq_error.1 h with h | ⟨x, -, h⟩
      · exact ih h
      · cases h

/-- the kinds of errors of the parsing of values -/
theorem kv_error {X : ExtraDigits} {mode : Str} (hm : mode ≠ []) {args : Dict Str Str} (hw : Dict.WF args) {d : Data} {e : PyErr}
    (h : kvParse X mode d args = .error e) :
    (e = .notAXMessage ∧ (args.get? t!"mode" = none ∨ args.get? t!"mode" = some [])) ∨
    ((∃ s, s ≠ [] ∧ args.get? t!"mode" = some s) ∧ (e = .axError ∨ e = .keyError ∨ e = .invalidNamespace ∨
      (e = .assertionError ∧ ∃ a u, typeOf args a = some u ∧ a ∈ OPENID_PROTOCOL_FIELDS) ∨
      (e = .valueError ∧ ∃ a u s, typeOf args a = some u ∧ args.get? (t!"count." ++ a) = some s ∧ ∀ n, parseInt X s ≠ .ok n))) := by
  rw [kvParse] at h
  rcases bind_eq_error.1 h with h | ⟨⟨⟩, h0, h⟩
  · rcases (checkMode_error h).2 with h | ⟨h1, h2⟩
    · exact .inl h
    · exact .inr ⟨h2, .inl h1⟩
  right
  refine ⟨⟨_, hm, checkMode_ok.1 h0⟩, ?_⟩
  have hstep : ∀ (s : NamespaceMap) (x : Str × Str) (s' : NamespaceMap), Good s → kvType s x = .ok s' → Good s' := by
    intro s x s' hs h
    unfold kvType at h
    split at h
    · obtain ⟨⟨⟩, h1, h⟩ := bind_eq_ok.1 h
      exact (addAlias_good hs (checkAlias_ok.1 h1).1 h).1
    · cases h; exact hs
  rcases bind_eq_error.1 h with h | ⟨m, h1, h⟩
  · obtain ⟨x, hx, s, hs, h⟩ := foldlM_error_inv (P := Good) hstep good_empty h
    unfold kvType at h
    split at h
    · next hst =>
      rcases bind_eq_error.1 h with h | ⟨⟨⟩, h1, h⟩
      · exact .inl (checkAlias_error h)
      · rcases addAlias_error_good hs h with h | ⟨h, g⟩
        · exact .inr (.inr (.inl h))
        · refine .inr (.inr (.inr (.inl ⟨h, _, _, type_mem hw hx hst, ?_⟩)))
          rcases g with g | g
          · exact absurd g (checkAlias_ok.1 h1).2
          · exact g
    · cases h
  · have hg : Good m := foldlM_ok_inv (P := Good) hstep good_empty h1
    have hfrom : ∀ u a, m.nsToAlias.get? u = some (.name a) → typeOf args a = some u := by
      have := foldlM_ok_inv' (P := fun s : NamespaceMap => ∀ u a, s.nsToAlias.get? u = some (.name a) → typeOf args a = some u)
        (l := args) (by
          intro s x hx s' hs h u a hu
          unfold kvType at h
          split at h
          · next hst =>
            obtain ⟨⟨⟩, h1, h⟩ := bind_eq_ok.1 h
            obtain ⟨-, -, -, -, rfl⟩ := addAlias_ok _ _ _ _ _ h
            simp only [Dict.get?_set] at hu
            split at hu
            · next e => cases hu; subst e; exact type_mem hw hx hst
            · exact hs u a hu
          · cases h; exact hs u a hu) (b := {}) (by simp [Dict.get?]) h1
      exact this
    obtain ⟨x, hx, s, -, h⟩ := foldlM_error_inv (fun _ => True) (by simp) trivial h
    have hx' := Dict.get?_of_mem _ hg.inv.wfN _ _ hx
    obtain ⟨b, hb, -⟩ := hg.name _ _ hx'
    unfold kvTake at h
    rw [hb] at h
    simp only at h
    rcases bind_eq_error.1 h with h | ⟨vs, -, h⟩
    · unfold kvValues at h
      split at h
      · split at h
        · cases h; exact .inr (.inl rfl)
        · cases h
      · next c hc =>
        rcases bind_eq_error.1 h with h | ⟨n, -, h⟩
        · have := parseInt_error X c e h
          refine .inr (.inr (.inr (.inr ⟨this, b, x.1, c, hfrom _ _ (by rw [hx', hb]), hc, ?_⟩)))
          intro n hn; rw [h] at hn; cases hn
        · exact .inr (.inl (valuesFrom_error h))
    · cases h

end Ax
