import Verif.Model.Form
import Verif.Spec.Form
import Verif.Lemmas.Py
/-! # Lemmas: reading what was written as a form -/

namespace Form
open Py Message Spec

/-! ## Values -/

theorem value_char (c : Char) (v : Str) : (escapeChar c).foldl attrStep (v, none) = (v ++ [c], none) := by
  unfold escapeChar
  split
  · next h => subst h; rfl
  · split
    · next h => subst h; rfl
    · split
      · next h => subst h; rfl
      · split
        · next h => subst h; rfl
        · split
          · next h => subst h; rfl
          · split
            · next h => subst h; rfl
            · split
              · next h => subst h; rfl
              · next h _ _ _ _ _ _ => simp [attrStep, h]

theorem value_escape (s v : Str) : (escape s).foldl attrStep (v, none) = (v ++ s, none) := by
  induction s generalizing v with
  | nil => simp [escape]
  | cons c s ih =>
    rw [show escape (c :: s) = escapeChar c ++ escape s from rfl, List.foldl_append, value_char, ih]
    simp

theorem valueOf_escape (s : Str) : valueOf (escape s) = s := by
  unfold valueOf
  rw [value_escape]
  rfl

theorem escape_quote (s : Str) : '"' ∉ escape s := by
  intro h
  obtain ⟨c, -, h⟩ := List.mem_flatMap.1 h
  unfold escapeChar at h
  repeat' split at h
  all_goals first | exact absurd h (by decide) | skip
  next h4 _ _ _ => simp at h; exact h4 h.symm

/-! ## Tags -/

/-- a name that a reader takes as one -/
abbrev Name (n : Str) : Prop := AttrName n

theorem read_attrName (ts : List Tag) (t : Tag) (n a : Str) (h : ∀ c ∈ n, c ≠ '=' ∧ c ≠ '>' ∧ c ≠ '/' ∧ isBlank c = false) :
    n.foldl readStep (ts, .attr t a) = (ts, .attr t (a ++ n)) := by
  induction n generalizing a with
  | nil => simp
  | cons c n ih =>
    have hc := h c (by simp)
    rw [List.foldl_cons]
    have : readStep (ts, .attr t a) c = (ts, .attr t (a ++ [c])) := by
      simp [readStep, hc.1, hc.2.1, hc.2.2.1, hc.2.2.2]
    rw [this, ih _ (fun x hx => h x (by simp [hx]))]
    simp

theorem read_value (ts : List Tag) (t : Tag) (a raw s : Str) (h : '"' ∉ s) :
    s.foldl readStep (ts, .value t a (some '"') raw) = (ts, .value t a (some '"') (raw ++ s)) := by
  induction s generalizing raw with
  | nil => simp
  | cons c s ih =>
    rw [List.foldl_cons]
    have hc : c ≠ '"' := fun e => h (by simp [e])
    have : readStep (ts, .value t a (some '"') raw) c = (ts, .value t a (some '"') (raw ++ [c])) := by
      simp [readStep, hc]
    rw [this, ih _ (fun e => h (by simp [e]))]
    simp

theorem read_attr (ts : List Tag) (t : Tag) (p : Str × Str) (h : Name p.1) :
    (' ' :: p.1 ++ t!"=\"" ++ escape p.2 ++ t!"\"").foldl readStep (ts, .tag t) = (ts, .tag (t.add p.1 p.2)) := by
  obtain ⟨n, v⟩ := p
  cases n with
  | nil => exact absurd rfl h.1
  | cons c n =>
    have hc := h.2 c (by simp)
    have h1 : (' ' :: c :: n).foldl readStep (ts, .tag t) = (ts, .attr t (c :: n)) := by
      rw [List.foldl_cons, List.foldl_cons]
      have e1 : readStep (ts, .tag t) ' ' = (ts, .tag t) := rfl
      have e2 : readStep (ts, .tag t) c = (ts, .attr t [c]) := by simp [readStep, hc.2.1, hc.2.2.1, hc.2.2.2]
      rw [e1, e2, read_attrName _ _ _ _ (fun x hx => h.2 x (by simp [hx]))]
      rfl
    have h2 : (t!"=\"").foldl readStep (ts, .attr t (c :: n)) = (ts, .value t (c :: n) (some '"') []) := rfl
    rw [List.foldl_append, List.foldl_append, List.foldl_append]
    show (t!"\"").foldl readStep ((escape v).foldl readStep ((t!"=\"").foldl readStep
      ((' ' :: c :: n).foldl readStep (ts, .tag t)))) = _
    rw [h1, h2, read_value _ _ _ _ _ (escape_quote v)]
    show readStep (ts, .value t (c :: n) (some '"') ([] ++ escape v)) '"' = _
    simp [readStep, valueOf_escape]

theorem read_attrs (ts : List Tag) (t : Tag) (d : Dict Str Str) (h : ∀ p ∈ d, Name p.1) :
    (attrsText d).foldl readStep (ts, .tag t) = (ts, .tag { t with attrs := t.attrs ++ d }) := by
  induction d generalizing t with
  | nil => simp [attrsText]
  | cons p d ih =>
    rw [show attrsText (p :: d) = (' ' :: p.1 ++ t!"=\"" ++ escape p.2 ++ t!"\"") ++ attrsText d from rfl,
      List.foldl_append, read_attr _ _ _ (h p (by simp)), ih _ (fun x hx => h x (by simp [hx]))]
    simp [Tag.add]

/-- a tag whose attributes are not empty, read from where text is -/
theorem read_open (ts : List Tag) (name : Str) (d : Dict Str Str) (h : ∀ p ∈ d, Name p.1) (hd : d ≠ [])
    (hn : (('<' :: name) ++ t!" ").foldl readStep (ts, .text) = (ts, .tag ⟨name, []⟩)) :
    ('<' :: name ++ attrsText d).foldl readStep (ts, .text) = (ts, .tag ⟨name, d⟩) := by
  cases d with
  | nil => exact absurd rfl hd
  | cons p d =>
    have e : attrsText (p :: d) = ' ' :: (p.1 ++ t!"=\"" ++ escape p.2 ++ t!"\"" ++ attrsText d) := by
      simp [attrsText]
    have h1 := read_attrs ts ⟨name, []⟩ (p :: d) h
    rw [e, List.foldl_cons] at h1
    rw [e, List.foldl_append, List.foldl_cons]
    have h2 : readStep (('<' :: name).foldl readStep (ts, .text)) ' ' = (ts, .tag ⟨name, []⟩) := by
      rw [List.foldl_append] at hn; exact hn
    have h3 : readStep (ts, .tag ⟨name, []⟩) ' ' = (ts, .tag ⟨name, []⟩) := rfl
    rw [h2, ← h3, h1]
    simp

theorem legible_iff {s : Str} : s.all xmlChar = true ↔ Legible s := by
  simp only [List.all_eq_true, Legible, xmlChar, Bool.or_eq_true, decide_eq_true_eq, Bool.and_eq_true, ne_eq, or_assoc,
    and_assoc]

theorem input_ok {d : Dict Str Str} {s : Str} :
    input d = .ok s ↔ (∀ p ∈ d, Legible p.2) ∧ s = t!"<input" ++ attrsText d ++ t!"/>" := by
  unfold input
  by_cases h : d.all (fun p => p.2.all xmlChar) = true
  · have h' : ∀ p ∈ d, Legible p.2 := fun p hp => legible_iff.1 (List.all_eq_true.1 h p hp)
    simp [h, eq_comm, -List.all_eq_true]
    intro _
    exact fun a b hp => h' _ hp
  · have h' : ¬ ∀ p ∈ d, Legible p.2 := fun hh => h (List.all_eq_true.2 fun p hp => legible_iff.2 (hh p hp))
    rw [if_pos (by simpa using h)]
    constructor
    · intro e; cases e
    · intro e; exact absurd e.1 h'

theorem read_input {d : Dict Str Str} {s : Str} (h : input d = .ok s) (hd : d ≠ []) (hn : ∀ p ∈ d, Name p.1)
    (ts : List Tag) : s.foldl readStep (ts, .text) = (ts ++ [⟨t!"input", d⟩], .text) := by
  rw [(input_ok.1 h).2, List.foldl_append]
  rw [show t!"<input" ++ attrsText d = '<' :: t!"input" ++ attrsText d from rfl, read_open _ _ _ hn hd rfl]
  rfl

theorem names_hidden (p : Str × Str) : ∀ x ∈ [(t!"type", t!"hidden"), (t!"name", p.1), (t!"value", p.2)], Name x.1 := by
  intro x hx
  simp only [List.mem_cons, List.not_mem_nil, or_false] at hx
  rcases hx with rfl | rfl | rfl <;> simp [AttrName, isBlank]

theorem hidden_ok {p : Str × Str} {s : Str} : hidden p = .ok s ↔ (Legible p.1 ∧ Legible p.2) ∧
    s = t!"<input" ++ attrsText [(t!"type", t!"hidden"), (t!"name", p.1), (t!"value", p.2)] ++ t!"/>" := by
  rw [hidden, input_ok]
  simp only [List.mem_cons, List.not_mem_nil, or_false, forall_eq_or_imp, forall_eq]
  constructor
  · rintro ⟨⟨-, h1, h2⟩, h⟩; exact ⟨⟨h1, h2⟩, h⟩
  · rintro ⟨⟨h1, h2⟩, h⟩; exact ⟨⟨legible_iff.1 (by decide), h1, h2⟩, h⟩

theorem read_hidden {l : List (Str × Str)} {r : List Str} (h : l.mapM hidden = .ok r) (ts : List Tag) :
    r.flatten.foldl readStep (ts, .text) =
      (ts ++ l.map (fun p => ⟨t!"input", [(t!"type", t!"hidden"), (t!"name", p.1), (t!"value", p.2)]⟩), .text) := by
  induction l generalizing r ts with
  | nil => simp at h; subst h; simp
  | cons p l ih =>
    rw [List.mapM_cons] at h
    obtain ⟨s, h1, h2⟩ := bind_eq_ok.1 h
    obtain ⟨r', h3, h4⟩ := bind_eq_ok.1 h2
    simp at h4; subst h4
    rw [List.flatten_cons, List.foldl_append, read_input h1 (by simp) (names_hidden p), ih h3]
    simp

theorem hidden_all {l : List (Str × Str)} : (∃ r, l.mapM hidden = .ok r) ↔ ∀ p ∈ l, Legible p.1 ∧ Legible p.2 := by
  induction l with
  | nil => simp
  | cons p l ih =>
    rw [List.mapM_cons]
    constructor
    · rintro ⟨r, h⟩
      obtain ⟨s, h1, h2⟩ := bind_eq_ok.1 h
      obtain ⟨r', h3, h4⟩ := bind_eq_ok.1 h2
      have := ih.1 ⟨r', h3⟩
      intro x hx
      rcases List.mem_cons.1 hx with rfl | hx
      · exact (hidden_ok.1 h1).1
      · exact this x hx
    · intro h
      obtain ⟨r', h3⟩ := ih.2 (fun x hx => h x (by simp [hx]))
      have := hidden_ok.2 ⟨h p (by simp), rfl⟩
      exact ⟨_, by rw [this, h3]; rfl⟩

/-! ## The attributes of the form -/

theorem setAttr_ok {okName : Str → Bool} {d d' : Dict Str Str} {n v : Str} :
    setAttr okName d n v = .ok d' ↔ okName n = true ∧ Legible v ∧ d' = d.set n v := by
  unfold setAttr
  rw [← legible_iff]
  cases okName n <;> cases v.all xmlChar <;> simp [eq_comm]

theorem names_set {d : Dict Str Str} {n v : Str} (h : ∀ p ∈ d, Name p.1) (hn : Name n) : ∀ p ∈ d.set n v, Name p.1 := by
  induction d with
  | nil => intro p hp; simp [Dict.set] at hp; subst hp; exact hn
  | cons x d ih =>
    intro p hp
    rw [Dict.set] at hp
    split at hp
    · rcases List.mem_cons.1 hp with rfl | hp
      · exact h x (by simp)
      · exact h p (by simp [hp])
    · rcases List.mem_cons.1 hp with rfl | hp
      · exact h _ (by simp)
      · exact ih (fun y hy => h y (by simp [hy])) p hp

theorem attrs_fold {okName : Str → Bool} {attrs d d' : Dict Str Str}
    (h : attrs.foldlM (fun d p => setAttr okName d p.1 p.2) d = .ok d') :
    d' = d.update attrs ∧ ∀ p ∈ attrs, okName p.1 = true ∧ Legible p.2 := by
  induction attrs generalizing d with
  | nil => simp at h; subst h; exact ⟨rfl, by simp⟩
  | cons p l ih =>
    rw [List.foldlM_cons] at h
    obtain ⟨d1, h1, h2⟩ := bind_eq_ok.1 h
    obtain ⟨e1, e2, e3⟩ := setAttr_ok.1 h1
    obtain ⟨e4, e5⟩ := ih h2
    subst e3
    refine ⟨by rw [e4, Dict.update_cons], fun x hx => ?_⟩
    rcases List.mem_cons.1 hx with rfl | hx
    · exact ⟨e1, e2⟩
    · exact e5 x hx

theorem attrs_fold_can {okName : Str → Bool} {attrs : Dict Str Str} (d : Dict Str Str)
    (h : ∀ p ∈ attrs, okName p.1 = true ∧ Legible p.2) :
    attrs.foldlM (fun d p => setAttr okName d p.1 p.2) d = .ok (d.update attrs) := by
  induction attrs generalizing d with
  | nil => rfl
  | cons p l ih =>
    have hp := h p (by simp)
    rw [List.foldlM_cons, setAttr_ok.2 ⟨hp.1, hp.2, rfl⟩, ok_bind, ih _ (fun x hx => h x (by simp [hx])), Dict.update_cons]

/-- the four attributes of the code -/
def ownAttrs (d : Dict Str Str) (action : Str) : Dict Str Str :=
  (((d.set t!"action" action).set t!"method" t!"post").set t!"accept-charset" t!"UTF-8").set t!"enctype"
    t!"application/x-www-form-urlencoded"

theorem formAttrs_ok {okName : Str → Bool} {action : Str} {attrs d : Dict Str Str} :
    formAttrs okName action attrs = .ok d ↔
      (∀ p ∈ attrs, okName p.1 = true ∧ Legible p.2) ∧ Legible action ∧ d = ownAttrs (Dict.update [] attrs) action := by
  unfold formAttrs
  constructor
  · intro h
    obtain ⟨d1, h1, h⟩ := bind_eq_ok.1 h
    obtain ⟨d2, h2, h⟩ := bind_eq_ok.1 h
    obtain ⟨d3, h3, h⟩ := bind_eq_ok.1 h
    obtain ⟨d4, h4, h⟩ := bind_eq_ok.1 h
    obtain ⟨e1, e2⟩ := attrs_fold h1
    obtain ⟨-, e3, e4⟩ := setAttr_ok.1 h2
    obtain ⟨-, -, e5⟩ := setAttr_ok.1 h3
    obtain ⟨-, -, e6⟩ := setAttr_ok.1 h4
    obtain ⟨-, -, e7⟩ := setAttr_ok.1 h
    exact ⟨e2, e3, by rw [e7, e6, e5, e4, e1]; rfl⟩
  · rintro ⟨h1, h2, rfl⟩
    rw [attrs_fold_can _ h1, ok_bind, setAttr_ok.2 ⟨rfl, h2, rfl⟩, ok_bind,
      setAttr_ok.2 ⟨rfl, legible_iff.1 (by decide), rfl⟩, ok_bind,
      setAttr_ok.2 ⟨rfl, legible_iff.1 (by decide), rfl⟩, ok_bind,
      setAttr_ok.2 ⟨rfl, legible_iff.1 (by decide), rfl⟩]
    rfl

theorem attrOf_eq (d : Dict Str Str) (k : Str) : attrOf d k = d.get? k := by
  induction d with
  | nil => rfl
  | cons p d ih =>
    rw [Dict.get?_cons]
    unfold attrOf at ih ⊢
    rw [List.find?_cons]
    by_cases h : p.1 = k
    · simp [h]
    · simp [h]; simpa using ih

/-! ## The form and its page -/

theorem names_update {d e : Dict Str Str} (hd : ∀ p ∈ d, Name p.1) (he : ∀ p ∈ e, Name p.1) :
    ∀ p ∈ d.update e, Name p.1 := by
  induction e generalizing d with
  | nil => exact hd
  | cons p e ih =>
    rw [Dict.update_cons]
    exact ih (names_set hd (he p (by simp))) (fun x hx => he x (by simp [hx]))

theorem names_own {d : Dict Str Str} {action : Str} (h : ∀ p ∈ d, Name p.1) : ∀ p ∈ ownAttrs d action, Name p.1 := by
  unfold ownAttrs
  refine names_set (names_set (names_set (names_set h ?_) ?_) ?_) ?_ <;> unfold Name AttrName <;> decide

theorem own_nonempty (d : Dict Str Str) (action : Str) : ownAttrs d action ≠ [] := by
  intro h
  have : (ownAttrs d action).get? t!"enctype" = some t!"application/x-www-form-urlencoded" := by
    unfold ownAttrs; rw [Dict.get?_set]; simp
  rw [h] at this; cases this

/-- the inputs of a form that carries these fields -/
def inputsOf (fields : List (Str × Str)) (submit : Str) : List (Dict Str Str) :=
  fields.map (fun p => [(t!"type", t!"hidden"), (t!"name", p.1), (t!"value", p.2)]) ++
    [[(t!"type", t!"submit"), (t!"value", submit)]]

theorem markup_iff {okName : Str → Bool} {m : Msg} {action submit : Str} {attrs : Dict Str Str} :
    (∃ s, toFormMarkup okName m action attrs submit = .ok s) ↔
      (∀ p ∈ attrs, okName p.1 = true ∧ Legible p.2) ∧ Legible action ∧
      (∀ p ∈ m.toPostArgs, Legible p.1 ∧ Legible p.2) ∧ Legible submit := by
  unfold toFormMarkup
  constructor
  · rintro ⟨s, h⟩
    obtain ⟨d, h1, h⟩ := bind_eq_ok.1 h
    obtain ⟨r, h2, h⟩ := bind_eq_ok.1 h
    obtain ⟨b, h3, h⟩ := bind_eq_ok.1 h
    obtain ⟨e1, e2, -⟩ := formAttrs_ok.1 h1
    exact ⟨e1, e2, hidden_all.1 ⟨r, h2⟩, (input_ok.1 h3).1 (t!"value", submit) (by simp)⟩
  · rintro ⟨h1, h2, h3, h4⟩
    obtain ⟨r, hr⟩ := hidden_all.2 h3
    rw [formAttrs_ok.2 ⟨h1, h2, rfl⟩, ok_bind, hr, ok_bind, input_ok.2 ⟨by
      intro p hp
      simp only [List.mem_cons, List.not_mem_nil, or_false] at hp
      rcases hp with rfl | rfl
      · exact legible_iff.1 (by decide)
      · exact h4, rfl⟩]
    exact ⟨_, rfl⟩

theorem read_markup {okName : Str → Bool} (hok : ∀ n, okName n = true → Name n) {m : Msg} {action submit s : Str}
    {attrs : Dict Str Str} (h : toFormMarkup okName m action attrs submit = .ok s) (ts : List Tag) :
    s.foldl readStep (ts, .text) = (ts ++ ⟨t!"form", ownAttrs (Dict.update [] attrs) action⟩ ::
      (inputsOf m.toPostArgs submit).map (fun d => ⟨t!"input", d⟩) ++ [⟨t!"/form", []⟩], .text) := by
  unfold toFormMarkup at h
  obtain ⟨d, h1, h⟩ := bind_eq_ok.1 h
  obtain ⟨r, h2, h⟩ := bind_eq_ok.1 h
  obtain ⟨b, h3, h⟩ := bind_eq_ok.1 h
  obtain ⟨e1, e2, e3⟩ := formAttrs_ok.1 h1
  simp only [pure_eq_ok, Except.ok.injEq] at h
  subst h; subst e3
  have hn : ∀ p ∈ ownAttrs (Dict.update [] attrs) action, Name p.1 :=
    names_own (names_update (by simp) (fun p hp => hok _ (e1 p hp).1))
  have hb : ∀ x ∈ [(t!"type", t!"submit"), (t!"value", submit)], Name x.1 := by
    intro x hx
    simp only [List.mem_cons, List.not_mem_nil, or_false] at hx
    rcases hx with rfl | rfl <;> simp [AttrName, isBlank]
  rw [List.foldl_append, List.foldl_append, List.foldl_append, List.foldl_append,
    show t!"<form" ++ attrsText (ownAttrs (Dict.update [] attrs) action) =
      '<' :: t!"form" ++ attrsText (ownAttrs (Dict.update [] attrs) action) from rfl,
    read_open _ _ _ hn (own_nonempty _ _) rfl]
  show (t!"</form>").foldl readStep (b.foldl readStep (r.flatten.foldl readStep
    (ts ++ [⟨t!"form", ownAttrs (Dict.update [] attrs) action⟩], .text))) = _
  rw [read_hidden h2, read_input h3 (by simp) hb]
  simp [inputsOf, readStep, isBlank, isAlpha]

theorem read_step_prefix (ts : List Tag) (a : At) (c : Char) :
    readStep (ts, a) c = (ts ++ (readStep ([], a) c).1, (readStep ([], a) c).2) := by
  cases a with
  | value t n q raw => cases q <;> simp only [readStep] <;> (repeat' split) <;> simp
  | _ => simp only [readStep] <;> (repeat' split) <;> simp

theorem read_prefix (s : Str) (ts : List Tag) (a : At) :
    s.foldl readStep (ts, a) = (ts ++ (s.foldl readStep ([], a)).1, (s.foldl readStep ([], a)).2) := by
  induction s generalizing ts a with
  | nil => simp
  | cons c s ih =>
    rw [List.foldl_cons, List.foldl_cons, read_step_prefix, ih, ih (readStep ([], a) c).1]
    simp

/-- the page up to the form -/
theorem read_before (ts : List Tag) : (t!"\n<html>\n<head>\n  <title>" ++ defaultTitle ++
    t!"</title>\n</head>\n<body onload=\"document.forms[0].submit();\">\n").foldl readStep (ts, .text) =
    (ts ++ [⟨t!"html", []⟩, ⟨t!"head", []⟩, ⟨t!"title", []⟩, ⟨t!"/title", []⟩, ⟨t!"/head", []⟩,
      ⟨t!"body", [(t!"onload", t!"document.forms[0].submit();")]⟩], .text) := by
  rw [read_prefix]
  have : (t!"\n<html>\n<head>\n  <title>" ++ defaultTitle ++
    t!"</title>\n</head>\n<body onload=\"document.forms[0].submit();\">\n").foldl readStep ([], .text) =
    ([⟨t!"html", []⟩, ⟨t!"head", []⟩, ⟨t!"title", []⟩, ⟨t!"/title", []⟩, ⟨t!"/head", []⟩,
      ⟨t!"body", [(t!"onload", t!"document.forms[0].submit();")]⟩], .text) := by decide +kernel
  rw [this]

theorem read_after (ts : List Tag) :
    (t!"\n<script>\nvar elements = document.forms[0].elements;\nfor (var i = 0; i < elements.length; i++) {\n  elements[i].style.display = \"none\";\n}\n</script>\n</body>\n</html>\n").foldl
      readStep (ts, .text) = (ts ++ [⟨t!"script", []⟩, ⟨t!"/script", []⟩, ⟨t!"/body", []⟩, ⟨t!"/html", []⟩], .text) := by
  rw [read_prefix]
  have : (t!"\n<script>\nvar elements = document.forms[0].elements;\nfor (var i = 0; i < elements.length; i++) {\n  elements[i].style.display = \"none\";\n}\n</script>\n</body>\n</html>\n").foldl
      readStep ([], .text) = ([⟨t!"script", []⟩, ⟨t!"/script", []⟩, ⟨t!"/body", []⟩, ⟨t!"/html", []⟩], .text) := by
    decide +kernel
  rw [this]

theorem tags_page {okName : Str → Bool} (hok : ∀ n, okName n = true → Name n) {m : Msg} {action submit s : Str}
    {attrs : Dict Str Str} (h : toFormMarkup okName m action attrs submit = .ok s) :
    tagsOf (autoSubmitHTML s defaultTitle) =
      [⟨t!"html", []⟩, ⟨t!"head", []⟩, ⟨t!"title", []⟩, ⟨t!"/title", []⟩, ⟨t!"/head", []⟩,
       ⟨t!"body", [(t!"onload", t!"document.forms[0].submit();")]⟩] ++
      (⟨t!"form", ownAttrs (Dict.update [] attrs) action⟩ ::
        (inputsOf m.toPostArgs submit).map (fun d => ⟨t!"input", d⟩) ++ [⟨t!"/form", []⟩]) ++
      [⟨t!"script", []⟩, ⟨t!"/script", []⟩, ⟨t!"/body", []⟩, ⟨t!"/html", []⟩] := by
  unfold tagsOf autoSubmitHTML
  rw [List.foldl_append, List.foldl_append, read_before, read_markup hok h, read_after]
  simp

theorem fold_inputs (fs : List HtmlForm) (f : HtmlForm) (l : List (Dict Str Str)) :
    (l.map (fun d => (⟨t!"input", d⟩ : Tag))).foldl formStep (fs, some f) =
      (fs, some { f with inputs := f.inputs ++ l }) := by
  induction l generalizing f with
  | nil => simp
  | cons d l ih =>
    rw [List.map_cons, List.foldl_cons]
    have : formStep (fs, some f) ⟨t!"input", d⟩ = (fs, some { f with inputs := f.inputs ++ [d] }) := rfl
    rw [this, ih]
    simp

theorem fold_form (fs : List HtmlForm) (a : Dict Str Str) (l : List (Dict Str Str)) :
    ((⟨t!"form", a⟩ : Tag) :: l.map (fun d => (⟨t!"input", d⟩ : Tag)) ++ [(⟨t!"/form", []⟩ : Tag)]).foldl formStep (fs, none) =
      (fs ++ [⟨a, l⟩], none) := by
  rw [List.cons_append, List.foldl_cons, List.foldl_append]
  have : formStep (fs, none) ⟨t!"form", a⟩ = (fs, some ⟨a, []⟩) := rfl
  rw [this, fold_inputs]
  rfl

theorem forms_page {okName : Str → Bool} (hok : ∀ n, okName n = true → Name n) {m : Msg} {action submit s : Str}
    {attrs : Dict Str Str} (h : toFormMarkup okName m action attrs submit = .ok s) :
    formsOf (autoSubmitHTML s defaultTitle) = [⟨ownAttrs (Dict.update [] attrs) action, inputsOf m.toPostArgs submit⟩] := by
  unfold formsOf
  rw [tags_page hok h, List.foldl_append, List.foldl_append]
  show (List.foldl formStep (List.foldl formStep ([], none) _) _).1 = _
  rw [fold_form]
  rfl

theorem forms_markup {okName : Str → Bool} (hok : ∀ n, okName n = true → Name n) {m : Msg} {action submit s : Str}
    {attrs : Dict Str Str} (h : toFormMarkup okName m action attrs submit = .ok s) :
    formsOf s = [⟨ownAttrs (Dict.update [] attrs) action, inputsOf m.toPostArgs submit⟩] := by
  unfold formsOf tagsOf
  rw [read_markup hok h]
  show (List.foldl formStep ([], none) _).1 = _
  rw [List.nil_append, fold_form]
  rfl

theorem fields_inputs (a : Dict Str Str) (l : List (Str × Str)) (submit : Str) :
    HtmlForm.fields ⟨a, inputsOf l submit⟩ = l := by
  unfold HtmlForm.fields inputsOf
  rw [List.filterMap_append, List.filterMap_map]
  have : ((fun i => (attrOf i t!"name").map fun n => (n, (attrOf i t!"value").getD [])) ∘
      fun p : Str × Str => [(t!"type", t!"hidden"), (t!"name", p.1), (t!"value", p.2)]) = some := by
    funext p; rfl
  rw [this, List.filterMap_some]
  simp [attrOf]

theorem own_get (d : Dict Str Str) (action k : Str) : (ownAttrs d action).get? k =
    if k = t!"enctype" then some t!"application/x-www-form-urlencoded" else if k = t!"accept-charset" then some t!"UTF-8"
    else if k = t!"method" then some t!"post" else if k = t!"action" then some action else d.get? k := by
  unfold ownAttrs
  simp only [Dict.get?_set, eq_comm]

theorem posts_form (a : Dict Str Str) (l : List (Str × Str)) (action submit : Str) (page : Str)
    (h : formsOf page = [⟨ownAttrs a action, inputsOf l submit⟩]) : Posts page action l := by
  refine ⟨_, h, ?_, ?_, ?_, ?_, fields_inputs _ _ _, ?_⟩
  · rw [attrOf_eq, own_get]; rfl
  · rw [attrOf_eq, own_get]; rfl
  · rw [attrOf_eq, own_get]; rfl
  · rw [attrOf_eq, own_get]; rfl
  · rintro i hi ⟨n, hn⟩
    rcases List.mem_append.1 hi with hi | hi
    · obtain ⟨p, -, rfl⟩ := List.mem_map.1 hi
      rfl
    · simp only [List.mem_cons, List.not_mem_nil, or_false] at hi
      subst hi
      cases hn

theorem submits_page {okName : Str → Bool} (hok : ∀ n, okName n = true → Name n) {m : Msg} {action submit s : Str}
    {attrs : Dict Str Str} (h : toFormMarkup okName m action attrs submit = .ok s) :
    SubmitsItself (autoSubmitHTML s defaultTitle) := by
  have hp := tags_page hok h
  rw [List.append_assoc] at hp
  exact ⟨[⟨t!"html", []⟩, ⟨t!"head", []⟩, ⟨t!"title", []⟩, ⟨t!"/title", []⟩, ⟨t!"/head", []⟩],
    ⟨t!"body", [(t!"onload", t!"document.forms[0].submit();")]⟩, _, hp, by decide, rfl, rfl⟩

/-! ## Refusals -/

theorem setAttr_error {okName : Str → Bool} {d : Dict Str Str} {n v : Str} {e : PyErr}
    (h : setAttr okName d n v = .error e) : e = .valueError := by
  unfold setAttr at h
  split at h
  · cases h; rfl
  · split at h
    · cases h; rfl
    · cases h

theorem input_error {d : Dict Str Str} {e : PyErr} (h : input d = .error e) : e = .valueError := by
  unfold input at h
  split at h
  · cases h; rfl
  · cases h

theorem attrs_error {okName : Str → Bool} {attrs d : Dict Str Str} {e : PyErr}
    (h : attrs.foldlM (fun d p => setAttr okName d p.1 p.2) d = .error e) : e = .valueError := by
  induction attrs generalizing d with
  | nil => cases h
  | cons p l ih =>
    rw [List.foldlM_cons] at h
    rcases bind_eq_error.1 h with h | ⟨d', -, h⟩
    · exact setAttr_error h
    · exact ih h

theorem hidden_error {l : List (Str × Str)} {e : PyErr} (h : l.mapM hidden = .error e) : e = .valueError := by
  induction l with
  | nil => cases h
  | cons p l ih =>
    rw [List.mapM_cons] at h
    rcases bind_eq_error.1 h with h | ⟨s, -, h⟩
    · exact input_error h
    · rcases bind_eq_error.1 h with h | ⟨r, -, h⟩
      · exact ih h
      · cases h

theorem markup_error {okName : Str → Bool} {m : Msg} {action submit : Str} {attrs : Dict Str Str} {e : PyErr}
    (h : toFormMarkup okName m action attrs submit = .error e) : e = .valueError := by
  unfold toFormMarkup at h
  rcases bind_eq_error.1 h with h | ⟨d, -, h⟩
  · unfold formAttrs at h
    rcases bind_eq_error.1 h with h | ⟨d, -, h⟩
    · exact attrs_error h
    · rcases bind_eq_error.1 h with h | ⟨d, -, h⟩
      · exact setAttr_error h
      · rcases bind_eq_error.1 h with h | ⟨d, -, h⟩
        · exact setAttr_error h
        · rcases bind_eq_error.1 h with h | ⟨d, -, h⟩
          · exact setAttr_error h
          · exact setAttr_error h
  · rcases bind_eq_error.1 h with h | ⟨r, -, h⟩
    · exact hidden_error h
    · rcases bind_eq_error.1 h with h | ⟨b, -, h⟩
      · exact input_error h
      · cases h

end Form
