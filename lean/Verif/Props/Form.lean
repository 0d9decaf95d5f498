import Verif.Lemmas.Form
import Verif.Props.Honest
/-! # C64: messages as forms -/

namespace Props
open Py Message Spec Form

/-- **C64** The markup of a message has one form and nothing else: it is posted to the URL given, with exactly the fields of
    the message, hidden, whatever is in their names and values; the only other thing in it is a button with the text
    given. -/
theorem c64_form {okName : Str → Bool} (hok : ∀ n, okName n = true → AttrName n) {m : Msg} {action submit s : Str}
    {attrs : Dict Str Str} (h : toFormMarkup okName m action attrs submit = .ok s) :
    Posts s action m.toPostArgs ∧
    (tagsOf s).map (·.name) = t!"form" :: m.toPostArgs.map (fun _ => t!"input") ++ [t!"input", t!"/form"] ∧
    ∃ f, formsOf s = [f] ∧ f.inputs.getLast? = some [(t!"type", t!"submit"), (t!"value", submit)] := by
  refine ⟨posts_form _ _ _ _ _ (forms_markup hok h), ?_, _, forms_markup hok h, by simp [inputsOf]⟩
  rw [tagsOf, read_markup hok h]
  simp [inputsOf]

/-- **C64** When there is such markup: no characters that a page cannot have, and no attribute names that are none.
    Otherwise there is a ValueError. -/
theorem c64_can (okName : Str → Bool) (m : Msg) (action submit : Str) (attrs : Dict Str Str) :
    if (∀ p ∈ attrs, okName p.1 = true ∧ Legible p.2) ∧ Writable m action ∧ Legible submit then
      ∃ s, toFormMarkup okName m action attrs submit = .ok s
    else toFormMarkup okName m action attrs submit = .error .valueError := by
  split
  · next h => exact markup_iff.2 ⟨h.1, h.2.1.1, h.2.1.2, h.2.2⟩
  · next h =>
    cases hs : toFormMarkup okName m action attrs submit with
    | error e => rw [markup_error hs]
    | ok s =>
      obtain ⟨h1, h2, h3, h4⟩ := markup_iff.1 ⟨s, hs⟩
      exact absurd ⟨h1, ⟨h2, h3⟩, h4⟩ h

/-- **C64** The form has the attributes of the caller, but for `action`, `method`, `accept-charset` and `enctype`, which are
    always those of the library.  (The documentation says that the last two can be overridden.) -/
theorem c64_attrs {okName : Str → Bool} (hok : ∀ n, okName n = true → AttrName n) {m : Msg} {action submit s : Str}
    {attrs : Dict Str Str} (hw : Dict.WF attrs) (h : toFormMarkup okName m action attrs submit = .ok s) :
    ∃ f, formsOf s = [f] ∧ ∀ k, attrOf f.attrs k =
      if k = t!"enctype" then some t!"application/x-www-form-urlencoded" else if k = t!"accept-charset" then some t!"UTF-8"
      else if k = t!"method" then some t!"post" else if k = t!"action" then some action else attrs.get? k := by
  refine ⟨_, forms_markup hok h, fun k => ?_⟩
  rw [attrOf_eq, own_get, Dict.get?_update_WF _ _ hw]
  cases attrs.get? k <;> rfl

/-- **C64** The page around it adds no forms and no fields, and sends the form as soon as it is loaded. -/
theorem c64_page {okName : Str → Bool} (hok : ∀ n, okName n = true → AttrName n) {m : Msg} {action submit s : Str}
    {attrs : Dict Str Str} (h : toFormMarkup okName m action attrs submit = .ok s) :
    Posts (autoSubmitHTML s defaultTitle) action m.toPostArgs ∧ SubmitsItself (autoSubmitHTML s defaultTitle) ∧
    formsOf (autoSubmitHTML s defaultTitle) = formsOf s :=
  ⟨posts_form _ _ _ _ _ (forms_page hok h), submits_page hok h, by rw [forms_page hok h, forms_markup hok h]⟩

theorem c64_bears {okName : Str → Bool} (hok : ∀ n, okName n = true → AttrName n) {m : Msg} {action submit s : Str}
    {attrs : Dict Str Str} (hw : Dict.WF attrs) (h : toFormMarkup okName m action attrs submit = .ok s) :
    Bears s attrs ∧ Bears (autoSubmitHTML s defaultTitle) attrs := by
  obtain ⟨f, h1, h2⟩ := c64_attrs hok hw h
  have key : ∀ k, k ∉ [t!"action", t!"method", t!"accept-charset", t!"enctype"] → attrOf f.attrs k = attrs.get? k := by
    intro k hk
    rw [h2 k]
    simp only [List.mem_cons, List.not_mem_nil, or_false, not_or] at hk
    rw [if_neg hk.2.2.2, if_neg hk.2.2.1, if_neg hk.2.1, if_neg hk.1]
  exact ⟨⟨f, h1, key⟩, f, by rw [(c64_page hok h).2.2]; exact h1, key⟩

/-- **C64** The form of an authentication request posts the request's message to the provider. -/
theorem c64_request_form {okName : Str → Bool} (hok : ∀ n, okName n = true → AttrName n) (r : Consumer.AuthRequest)
    (realm : Str) (returnTo : Option Str) (immediate : Bool) (attrs : Dict Str Str) (hw : Dict.WF attrs) :
    match r.getMessage realm returnTo immediate with
    | .error e => r.formMarkup okName realm returnTo immediate attrs = .error e ∧
        r.htmlMarkup okName realm returnTo immediate attrs = .error e
    | .ok m =>
      if (∀ p ∈ attrs, okName p.1 = true ∧ Legible p.2) ∧ Writable m r.endpoint.serverUrl then
        ∃ form page, r.formMarkup okName realm returnTo immediate attrs = .ok form ∧
          r.htmlMarkup okName realm returnTo immediate attrs = .ok page ∧
          Posts form r.endpoint.serverUrl m.toPostArgs ∧ Posts page r.endpoint.serverUrl m.toPostArgs ∧ SubmitsItself page ∧
          Bears form attrs ∧ Bears page attrs
      else r.formMarkup okName realm returnTo immediate attrs = .error .valueError ∧
        r.htmlMarkup okName realm returnTo immediate attrs = .error .valueError := by
  unfold Consumer.AuthRequest.htmlMarkup Consumer.AuthRequest.formMarkup
  cases r.getMessage realm returnTo immediate with
  | error e => exact ⟨rfl, rfl⟩
  | ok m =>
    have hl : Legible defaultSubmit := by decide
    have := c64_can okName m r.endpoint.serverUrl defaultSubmit attrs
    simp only [ok_bind]
    split
    · next h =>
      rw [if_pos ⟨h.1, h.2, hl⟩] at this
      obtain ⟨s, hs⟩ := this
      exact ⟨s, _, hs, by rw [hs]; rfl, (c64_form hok hs).1, (c64_page hok hs).1, (c64_page hok hs).2.1,
        (c64_bears hok hw hs).1, (c64_bears hok hw hs).2⟩
    · next h =>
      rw [if_neg (fun h' => h ⟨h'.1, h'.2.1⟩)] at this
      exact ⟨this, by rw [this]; rfl⟩

/-- **C64** The form of a response to a request through the browser posts the response to where the request said. -/
theorem c64_response_form {okName : Str → Bool} (hok : ∀ n, okName n = true → AttrName n) (r : Server.Response) (url : Str)
    (hu : r.request.returnTo = .ok (some url)) (attrs : Dict Str Str) (hw : Dict.WF attrs) :
    if (∀ p ∈ attrs, okName p.1 = true ∧ Legible p.2) ∧ Writable r.fields url then
      ∃ form page, r.toFormMarkup okName attrs = .ok form ∧ r.toHTML okName attrs = .ok page ∧
        Posts form url r.fields.toPostArgs ∧ Posts page url r.fields.toPostArgs ∧ SubmitsItself page ∧
        Bears form attrs ∧ Bears page attrs
    else r.toFormMarkup okName attrs = .error (.py .valueError) ∧ r.toHTML okName attrs = .error (.py .valueError) := by
  unfold Server.Response.toHTML Server.Response.toFormMarkup
  rw [hu]
  have hl : Legible defaultSubmit := by decide
  have := c64_can okName r.fields url defaultSubmit attrs
  simp only [ok_bind, Server.formMarkup]
  split
  · next h =>
    rw [if_pos ⟨h.1, h.2, hl⟩] at this
    obtain ⟨s, hs⟩ := this
    exact ⟨s, _, by rw [hs]; rfl, by rw [hs]; rfl, (c64_form hok hs).1, (c64_page hok hs).1, (c64_page hok hs).2.1,
      (c64_bears hok hw hs).1, (c64_bears hok hw hs).2⟩
  · next h =>
    rw [if_neg (fun h' => h ⟨h'.1, h'.2.1⟩)] at this
    exact ⟨by rw [this]; rfl, by rw [this]; rfl⟩

/-- **C64** Whether the browser is redirected or sent the form, it brings the same arguments to the provider. -/
theorem c64_same {okName : Str → Bool} (hok : ∀ n, okName n = true → AttrName n) {r : Consumer.AuthRequest}
    {realm : Str} {returnTo : Option Str} {immediate : Bool} {attrs : Dict Str Str} (hw : Dict.WF attrs) {page url : Str}
    (hpage : r.htmlMarkup okName realm returnTo immediate attrs = .ok page)
    (hurl : r.redirectURL realm returnTo immediate = .ok url) (hf : '#' ∉ r.endpoint.serverUrl) (q : Dict Str Str) :
    Brings ⟨200, none, page⟩ q ↔ Brings ⟨302, some url, []⟩ q := by
  have h := c64_request_form hok r realm returnTo immediate attrs hw
  unfold Consumer.AuthRequest.redirectURL at hurl
  cases hm : r.getMessage realm returnTo immediate with
  | error e => rw [hm] at hurl; cases hurl
  | ok m =>
    rw [hm] at h hurl
    simp only [ok_bind, pure_eq_ok, Except.ok.injEq] at h hurl
    subst hurl
    split at h
    · obtain ⟨_, page', -, h1, -, h2, -⟩ := h
      rw [hpage] at h1; cases h1
      unfold Brings
      refine and_congr Iff.rfl ?_
      simp only [Honest.toURL_get hf]
      constructor
      · rintro ⟨url', fields', p1, p2⟩ k
        obtain ⟨rfl, rfl⟩ := Honest.posts_unique p1 h2
        exact p2 k
      · exact fun h => ⟨_, _, h2, h⟩
    · rw [hpage] at h; cases h.2

/-- **C64** The title of the page is not escaped: a page with a title that comes from elsewhere can have another form. -/
theorem c64_title_not_escaped : ∃ title s, Posts s t!"http://op.example/" [] ∧
    (formsOf (autoSubmitHTML s title)).map (fun f => attrOf f.attrs t!"action") =
      [some t!"http://evil.example/", some t!"http://op.example/"] := by
  refine ⟨t!"<form action='http://evil.example/'></form>",
    t!"<form action=\"http://op.example/\" method=\"post\" accept-charset=\"UTF-8\" enctype=\"application/x-www-form-urlencoded\"></form>",
    ⟨⟨[(t!"action", t!"http://op.example/"), (t!"method", t!"post"), (t!"accept-charset", t!"UTF-8"),
       (t!"enctype", t!"application/x-www-form-urlencoded")], []⟩, by decide +kernel, rfl, rfl, rfl, rfl, rfl, fun _ h => by cases h⟩, by decide +kernel⟩

/-- a message whose values try to get out of their quotes -/
def sly0 : Msg := match fromPostArgs [] [(t!"openid.mode", t!"\"><script>alert('&amp;')</script>"),
    (t!"openid.\"/><input name=\"x", t!"a&quot;b\n\tc")] with
  | .ok m => m
  | .error _ => {}

example : formsOf (match toFormMarkup (fun n => n == t!"id") sly0 t!"http://op.example/?a=1&b=\"" [(t!"id", t!"f<1>")] t!"Go" with
      | .ok s => s | .error _ => []) =
    [⟨[(t!"id", t!"f<1>"), (t!"action", t!"http://op.example/?a=1&b=\""), (t!"method", t!"post"), (t!"accept-charset", t!"UTF-8"),
       (t!"enctype", t!"application/x-www-form-urlencoded")],
      [[(t!"type", t!"hidden"), (t!"name", t!"openid.mode"), (t!"value", t!"\"><script>alert('&amp;')</script>")],
       [(t!"type", t!"hidden"), (t!"name", t!"openid.\"/><input name=\"x"), (t!"value", t!"a&quot;b\n\tc")],
       [(t!"type", t!"submit"), (t!"value", t!"Go")]]⟩] := by decide +kernel

-- it can be written, with `id` as an attribute name but not with a control character
example : Writable sly0 t!"http://op.example/" ∧
    toFormMarkup (fun n => n == t!"id") sly0 t!"http://op.example/" [(t!"id", t!"\x00")] t!"Go" = .error .valueError ∧
    toFormMarkup (fun n => n == t!"id") sly0 t!"http://op.example/" [(t!"on load", t!"")] t!"Go" = .error .valueError :=
  ⟨by decide +kernel, by decide +kernel, by decide +kernel⟩

-- the request of the honest run, as a page
example : ∃ s1 req page url, Consumer.Runs (Consumer.beginWithoutDiscovery cworld0 cconf0 cenv0 ⟨none, none⟩ endpoint0 false)
      [.store (.getAssociation t!"http://op.example/" none) (.ok (.assoc (some cassoc0)))] (.ok (s1, .ok req)) ∧
    req.htmlMarkup (fun _ => false) t!"http://rp.example/" (some t!"http://rp.example/back") false [] = .ok page ∧
    req.redirectURL t!"http://rp.example/" (some t!"http://rp.example/back") false = .ok url ∧
    (formsOf page).map (fun f => f.fields.length) = [7] := by
  obtain ⟨r, h1, h2⟩ := check_play (p := Consumer.beginWithoutDiscovery cworld0 cconf0 cenv0 ⟨none, none⟩ endpoint0 false)
    (evs := [.store (.getAssociation t!"http://op.example/" none) (.ok (.assoc (some cassoc0)))])
    (f := fun r => match r with
      | .ok (_, .ok req) =>
        match req.htmlMarkup (fun _ => false) t!"http://rp.example/" (some t!"http://rp.example/back") false [],
          req.redirectURL t!"http://rp.example/" (some t!"http://rp.example/back") false with
        | .ok page, .ok _ => decide ((formsOf page).map (fun f => f.fields.length) = [7])
        | _, _ => false
      | _ => false) (by decide +kernel)
  match r, h2 with
  | .ok (s1, .ok req), h2 =>
    cases hp : req.htmlMarkup (fun _ => false) t!"http://rp.example/" (some t!"http://rp.example/back") false [] with
    | error e => simp [hp] at h2
    | ok page =>
      cases hu : req.redirectURL t!"http://rp.example/" (some t!"http://rp.example/back") false with
      | error e => simp [hp, hu] at h2
      | ok url => exact ⟨s1, req, page, url, h1, hp, hu, by simpa [hp, hu] using h2⟩

end Props
