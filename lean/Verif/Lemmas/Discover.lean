import Verif.Spec.Discover
import Verif.Lemmas.Yadis
/-! # Lemmas about discovery -/

namespace Discover
open Py Xml Spec

variable {α β : Type}

theorem gets_done {r r' : Except PyErr α} {gets : List Get} : Gets (.done r) gets r' ↔ gets = [] ∧ r = r' := by
  rw [Gets]

theorem gets_pure {a : α} {r' : Except PyErr α} {gets : List Get} :
    Gets (pure a : Prog α) gets r' ↔ gets = [] ∧ r' = .ok a := by
  show Gets (.done (.ok a)) gets r' ↔ _
  rw [Gets]; exact and_congr_right' eq_comm

theorem gets_handle {p : Prog α} {f : Except PyErr α → Prog β} {gets : List Get} {r : Except PyErr β} :
    Gets (p.handle f) gets r ↔ ∃ g1 g2 r1, gets = g1 ++ g2 ∧ Gets p g1 r1 ∧ Gets (f r1) g2 r := by
  induction p generalizing gets with
  | done r0 =>
    rw [Prog.handle]
    constructor
    · intro h; exact ⟨[], gets, r0, rfl, ⟨rfl, rfl⟩, h⟩
    · rintro ⟨g1, g2, r1, rfl, ⟨rfl, rfl⟩, h⟩; exact h
  | get u a k ih =>
    rw [Prog.handle, Gets]
    constructor
    · rintro ⟨o, rest, rfl, h⟩
      obtain ⟨g1, g2, r1, rfl, h1, h2⟩ := (ih o).1 h
      exact ⟨⟨u, a, o⟩ :: g1, g2, r1, rfl, ⟨o, g1, rfl, h1⟩, h2⟩
    · rintro ⟨g1, g2, r1, rfl, ⟨o, rest, rfl, h1⟩, h2⟩
      exact ⟨o, rest ++ g2, rfl, (ih o).2 ⟨rest, g2, r1, rfl, h1, h2⟩⟩

theorem gets_bind {p : Prog α} {f : α → Prog β} {gets : List Get} {r : Except PyErr β} :
    Gets (p >>= f) gets r ↔ (∃ e, Gets p gets (.error e) ∧ r = .error e) ∨
      ∃ g1 g2 a, gets = g1 ++ g2 ∧ Gets p g1 (.ok a) ∧ Gets (f a) g2 r := by
  show Gets (p.handle _) gets r ↔ _
  rw [gets_handle]
  constructor
  · rintro ⟨g1, g2, r1, rfl, h1, h2⟩
    cases r1 with
    | error e => rw [gets_done] at h2; exact .inl ⟨e, by rw [h2.1, List.append_nil]; exact h1, h2.2.symm⟩
    | ok a => exact .inr ⟨g1, g2, a, rfl, h1, h2⟩
  · rintro (⟨e, h1, rfl⟩ | ⟨g1, g2, a, rfl, h1, h2⟩)
    · exact ⟨gets, [], .error e, by simp, h1, rfl, rfl⟩
    · exact ⟨g1, g2, .ok a, rfl, h1, h2⟩

theorem gets_ofPy {r r' : Except PyErr α} {gets : List Get} : Gets (Prog.ofPy r) gets r' ↔ gets = [] ∧ r = r' := gets_done

theorem gets_ofPy_bind {x : Except PyErr α} {f : α → Prog β} {gets : List Get} {r : Except PyErr β} :
    Gets (Prog.ofPy x >>= f) gets r ↔ (∃ e, gets = [] ∧ x = .error e ∧ r = .error e) ∨ ∃ a, x = .ok a ∧ Gets (f a) gets r := by
  rw [gets_bind]
  constructor
  · rintro (⟨e, ⟨rfl, rfl⟩, rfl⟩ | ⟨g1, g2, a, rfl, ⟨rfl, rfl⟩, h⟩)
    · exact .inl ⟨e, rfl, rfl, rfl⟩
    · exact .inr ⟨a, rfl, h⟩
  · rintro (⟨e, rfl, rfl, rfl⟩ | ⟨a, rfl, h⟩)
    · exact .inl ⟨e, ⟨rfl, rfl⟩, rfl⟩
    · exact .inr ⟨[], gets, a, rfl, ⟨rfl, rfl⟩, h⟩

theorem gets_fetch_bind {u : Str} {acc : Option Str} {f : Page → Prog β} {gets : List Get} {r : Except PyErr β} :
    Gets (fetch u acc >>= f) gets r ↔ (∃ e, gets = [⟨u, acc, .error e⟩] ∧ r = .error e) ∨
      ∃ p rest, gets = ⟨u, acc, .ok p⟩ :: rest ∧ Gets (f p) rest r := by
  show Gets (.get u acc fun o => Prog.handle (.done o) _) gets r ↔ _
  rw [Gets]
  constructor
  · rintro ⟨o, rest, rfl, h⟩
    cases o with
    | error e => obtain ⟨rfl, rfl⟩ := h; exact .inl ⟨e, rfl, rfl⟩
    | ok p => exact .inr ⟨p, rest, rfl, h⟩
  · rintro (⟨e, rfl, rfl⟩ | ⟨p, rest, rfl, h⟩)
    · exact ⟨.error e, [], rfl, rfl, rfl⟩
    · exact ⟨.ok p, rest, rfl, h⟩

theorem Page.ok_iff (p : Page) : p.ok = true ↔ p.status = 200 ∨ p.status = 206 := by simp [Page.ok]

/-! ## The requests of discovery on a URL -/

/-- a page, if it is there -/
theorem gets_page {u : Str} {acc : Option Str} {f : Page → Prog β} {gets : List Get} {r : Except PyErr β} :
    Gets (do let p ← fetch u acc; if p.ok then f p else .done (.error .discoveryFailure)) gets r ↔
    (∃ e, gets = [⟨u, acc, .error e⟩] ∧ r = .error e) ∨
    (∃ p, gets = [⟨u, acc, .ok p⟩] ∧ ¬ p.ok = true ∧ r = .error .discoveryFailure) ∨
    ∃ p rest, gets = ⟨u, acc, .ok p⟩ :: rest ∧ Got ⟨u, acc, .ok p⟩ p ∧ Gets (f p) rest r := by
  rw [gets_fetch_bind]
  apply or_congr_right
  constructor
  · rintro ⟨p, rest, rfl, h⟩
    by_cases hp : p.ok = true
    · rw [if_pos hp] at h; exact .inr ⟨p, rest, rfl, ⟨rfl, (Page.ok_iff p).1 hp⟩, h⟩
    · rw [if_neg hp, gets_done] at h; exact .inl ⟨p, by rw [h.1], hp, h.2.symm⟩
  · rintro (⟨p, rfl, hp, rfl⟩ | ⟨p, rest, rfl, hp, h⟩)
    · exact ⟨p, [], rfl, by rw [if_neg hp]; exact ⟨rfl, rfl⟩⟩
    · exact ⟨p, rest, rfl, by rw [if_pos ((Page.ok_iff p).2 hp.2)]; exact h⟩

/-- is there another document to fetch? -/
def Elsewhere (p : Page) (loc : Option Str) (l : Str) : Prop := loc = some l ∧ l ≠ [] ∧ l ≠ p.finalUrl

theorem gets_followLocation {p : Page} {ct : Option Str} {loc : Option Str} {gets : List Get} {r : Except PyErr Result}
    (h : Gets (followLocation p ⟨p.finalUrl, loc, ct, []⟩) gets r) :
    ((∀ l, ¬ Elsewhere p loc l) ∧ gets = [] ∧ r = .ok ⟨p.finalUrl, loc, ct, p.body⟩) ∨
    ∃ l, Elsewhere p loc l ∧
      ((∃ e, gets = [⟨l, none, .error e⟩] ∧ r = .error e) ∨
       (∃ q, gets = [⟨l, none, .ok q⟩] ∧ ¬ q.ok = true ∧ r = .error .discoveryFailure) ∨
       ∃ q, gets = [⟨l, none, .ok q⟩] ∧ Got ⟨l, none, .ok q⟩ q ∧
         r = .ok ⟨p.finalUrl, loc, q.headers.get? t!"content-type", q.body⟩) := by
  rw [followLocation] at h
  split at h
  · next c cs hl =>
    simp only at hl
    subst hl
    simp only [Result.usedYadisLocation] at h
    by_cases hu : p.finalUrl ≠ c :: cs
    · rw [if_pos (by simpa using hu)] at h
      refine .inr ⟨_, ⟨rfl, by simp, Ne.symm hu⟩, ?_⟩
      rw [gets_page] at h
      rcases h with h | h | ⟨q, rest, rfl, h1, h2⟩
      · exact .inl h
      · exact .inr (.inl h)
      · rw [gets_pure] at h2
        obtain ⟨rfl, rfl⟩ := h2
        exact .inr (.inr ⟨q, rfl, h1, rfl⟩)
    · rw [if_neg (by simpa using hu), gets_pure] at h
      simp only [ne_eq, Decidable.not_not] at hu
      refine .inl ⟨?_, h.1, h.2⟩
      rintro l ⟨h1, -, h3⟩
      simp only [Option.some.injEq] at h1
      exact h3 (h1 ▸ hu.symm)
  · next hl =>
    rw [gets_pure] at h
    refine .inl ⟨?_, h.1, h.2⟩
    rintro l ⟨h1, h2, -⟩
    subst h1
    cases l with
    | nil => exact h2 rfl
    | cons c cs => exact hl c cs rfl

/-- What the Yadis protocol does. -/
theorem gets_yadisDiscover {W : World} {uri : Str} {gets : List Get} {r : Except PyErr Result}
    (h : Gets (yadisDiscover W uri) gets r) :
    (∃ o e, gets = [⟨uri, some yadisAccept, o⟩] ∧ r = .error e ∧ (o = .error e ∨ ∃ p, o = .ok p ∧
      (¬ p.ok = true ∧ e = .discoveryFailure ∨ p.ok = true ∧ whereIsYadis W p = .error e))) ∨
    ∃ p loc, Got ⟨uri, some yadisAccept, .ok p⟩ p ∧ whereIsYadis W p = .ok loc ∧
      (((∀ l, ¬ Elsewhere p loc l) ∧ gets = [⟨uri, some yadisAccept, .ok p⟩] ∧
          r = .ok ⟨p.finalUrl, loc, p.headers.get? t!"content-type", p.body⟩) ∨
       ∃ l o, Elsewhere p loc l ∧ gets = [⟨uri, some yadisAccept, .ok p⟩, ⟨l, none, o⟩] ∧
         ((∃ e, o = .error e ∧ r = .error e) ∨ (∃ q, o = .ok q ∧ ¬ q.ok = true ∧ r = .error .discoveryFailure) ∨
          ∃ q, o = .ok q ∧ Got ⟨l, none, .ok q⟩ q ∧ r = .ok ⟨p.finalUrl, loc, q.headers.get? t!"content-type", q.body⟩)) := by
  rw [yadisDiscover, gets_page] at h
  rcases h with ⟨e, rfl, rfl⟩ | ⟨p, rfl, hp, rfl⟩ | ⟨p, rest, rfl, hp, h⟩
  · exact .inl ⟨_, e, rfl, rfl, .inl rfl⟩
  · exact .inl ⟨_, _, rfl, rfl, .inr ⟨p, rfl, .inl ⟨hp, rfl⟩⟩⟩
  · rw [gets_ofPy_bind] at h
    rcases h with ⟨e, rfl, hw, rfl⟩ | ⟨loc, hw, h⟩
    · exact .inl ⟨_, e, rfl, rfl, .inr ⟨p, rfl, .inr ⟨(Page.ok_iff p).2 hp.2, hw⟩⟩⟩
    · refine .inr ⟨p, loc, hp, hw, ?_⟩
      rcases gets_followLocation h with ⟨h1, rfl, rfl⟩ | ⟨l, hl, h2⟩
      · exact .inl ⟨h1, rfl, rfl⟩
      · right
        rcases h2 with ⟨e, rfl, rfl⟩ | ⟨q, rfl, hq, rfl⟩ | ⟨q, rfl, hq, rfl⟩
        · exact ⟨l, _, hl, rfl, .inl ⟨e, rfl, rfl⟩⟩
        · exact ⟨l, _, hl, rfl, .inr (.inl ⟨q, rfl, hq, rfl⟩)⟩
        · exact ⟨l, _, hl, rfl, .inr (.inr ⟨q, rfl, hq, rfl⟩)⟩

theorem gets_discoverNoYadis {W : World} {uri : Str} {gets : List Get} {r : Except PyErr (Str × List Endpoint)}
    (h : Gets (discoverNoYadis W uri) gets r) :
    ∃ o, gets = [⟨uri, none, o⟩] ∧
      ((∃ e, o = .error e ∧ r = .error e) ∨ (∃ p, o = .ok p ∧ ¬ p.ok = true ∧ r = .error .discoveryFailure) ∨
       ∃ p, o = .ok p ∧ Got ⟨uri, none, .ok p⟩ p ∧ r = .ok (p.finalUrl, fromHTML W p.finalUrl p.body)) := by
  rw [discoverNoYadis, gets_page] at h
  rcases h with ⟨e, rfl, rfl⟩ | ⟨p, rfl, hp, rfl⟩ | ⟨p, rest, rfl, hp, h⟩
  · exact ⟨_, rfl, .inl ⟨e, rfl, rfl⟩⟩
  · exact ⟨_, rfl, .inr (.inl ⟨p, rfl, hp, rfl⟩)⟩
  · rw [gets_pure] at h
    obtain ⟨rfl, rfl⟩ := h
    exact ⟨_, rfl, .inr (.inr ⟨p, rfl, hp, rfl⟩)⟩

/-- What `discoverYadis` does once the document is there. -/
theorem gets_discoverYadis {W : World} {uri : Str} {gets : List Get} {r : Except PyErr (Str × List Endpoint)}
    (h : Gets (discoverYadis W uri) gets r) :
    (∃ e, Gets (yadisDiscover W uri) gets (.error e) ∧ r = .error e) ∨
    ∃ g1 g2 y, gets = g1 ++ g2 ∧ Gets (yadisDiscover W uri) g1 (.ok y) ∧
      ((∃ e, g2 = [] ∧ fromXRDS W y.normalizedUri y.body = .error e ∧ e ≠ .xrdsError ∧ e ≠ .xrdsFraud ∧ r = .error e) ∨
       (∃ es, g2 = [] ∧ fromXRDS W y.normalizedUri y.body = .ok es ∧ es ≠ [] ∧
          r = .ok (y.normalizedUri, getOPOrUserServices es)) ∨
       ((fromXRDS W y.normalizedUri y.body = .ok [] ∨ fromXRDS W y.normalizedUri y.body = .error .xrdsError ∨
          fromXRDS W y.normalizedUri y.body = .error .xrdsFraud) ∧
        ((y.isXRDS = true ∧ Gets (discoverNoYadis W uri) g2 r) ∨
         (y.isXRDS = false ∧ g2 = [] ∧
           r = .ok (y.normalizedUri, getOPOrUserServices (fromHTML W y.normalizedUri y.body)))))) := by
  rw [discoverYadis, gets_bind] at h
  rcases h with h | ⟨g1, g2, y, rfl, h1, h⟩
  · exact .inl h
  refine .inr ⟨g1, g2, y, rfl, h1, ?_⟩
  rw [gets_ofPy_bind] at h
  have hs : ∀ x : Except PyErr (List Endpoint), (∃ e, x = .error e ∧ e ≠ .xrdsError ∧ e ≠ .xrdsFraud ∧ servicesOrNone x = .error e) ∨
      (∃ es, x = .ok es ∧ servicesOrNone x = .ok es) ∨ ((x = .error .xrdsError ∨ x = .error .xrdsFraud) ∧ servicesOrNone x = .ok []) := by
    intro x
    cases x with
    | ok es => exact .inr (.inl ⟨es, rfl, rfl⟩)
    | error e => cases e <;> simp [servicesOrNone]
  have hrest : Gets (if (!([] : List Endpoint).isEmpty) = true then pure (y.normalizedUri, getOPOrUserServices [])
      else if y.isXRDS = true then discoverNoYadis W uri
      else pure (y.normalizedUri, getOPOrUserServices (fromHTML W y.normalizedUri y.body))) g2 r →
      ((y.isXRDS = true ∧ Gets (discoverNoYadis W uri) g2 r) ∨
         (y.isXRDS = false ∧ g2 = [] ∧
           r = .ok (y.normalizedUri, getOPOrUserServices (fromHTML W y.normalizedUri y.body)))) := by
    intro h
    rw [if_neg (by simp)] at h
    by_cases hx : y.isXRDS = true
    · rw [if_pos hx] at h; exact .inl ⟨hx, h⟩
    · rw [if_neg hx, gets_pure] at h; exact .inr ⟨by simpa using hx, h⟩
  rcases hs (fromXRDS W y.normalizedUri y.body) with ⟨e, he, h2, h3, h4⟩ | ⟨es, he, h4⟩ | ⟨he, h4⟩ <;> rw [h4] at h
  · rcases h with ⟨e', h5, h6, h7⟩ | ⟨a, h5, -⟩
    · simp only [Except.error.injEq] at h6
      subst h6
      exact .inl ⟨e, h5, he, h2, h3, h7⟩
    · simp at h5
  · rcases h with ⟨e', h5, h6, h7⟩ | ⟨a, h5, h⟩
    · simp at h6
    · simp only [Except.ok.injEq] at h5
      subst h5
      cases es with
      | nil => exact .inr (.inr ⟨.inl he, hrest h⟩)
      | cons x xs =>
        rw [if_pos (by simp), gets_pure] at h
        exact .inr (.inl ⟨_, h.1, he, by simp, h.2⟩)
  · rcases h with ⟨e', h5, h6, h7⟩ | ⟨a, h5, h⟩
    · simp at h6
    · simp only [Except.ok.injEq] at h5
      subst h5
      exact .inr (.inr ⟨.inr he, hrest h⟩)

theorem gets_discoverURI {W : World} {id : Str} {gets : List Get} {r : Except PyErr (Str × List Endpoint)}
    (h : Gets (discoverURI W id) gets r) :
    (∃ e, gets = [] ∧ (identifierURL W.uni id = .error e ∨
      ∃ url, identifierURL W.uni id = .ok url ∧ normalizeURL W.uni url = .error e) ∧ r = .error e) ∨
    ∃ url uri, identifierURL W.uni id = .ok url ∧ normalizeURL W.uni url = .ok uri ∧
      ((∃ e, Gets (discoverYadis W uri) gets (.error e) ∧ r = .error e) ∨
       ∃ found services, Gets (discoverYadis W uri) gets (.ok (found, services)) ∧
        ((∃ e, normalizeURL W.uni found = .error e ∧ r = .error e) ∨
         ∃ cid, normalizeURL W.uni found = .ok cid ∧ r = .ok (cid, services))) := by
  rw [discoverURI, gets_ofPy_bind] at h
  rcases h with ⟨e, rfl, he, rfl⟩ | ⟨url, hu, h⟩
  · exact .inl ⟨e, rfl, .inl he, rfl⟩
  rw [gets_ofPy_bind] at h
  rcases h with ⟨e, rfl, he, rfl⟩ | ⟨uri, hn, h⟩
  · exact .inl ⟨e, rfl, .inr ⟨url, hu, he⟩, rfl⟩
  refine .inr ⟨url, uri, hu, hn, ?_⟩
  rw [gets_bind] at h
  rcases h with h | ⟨g1, g2, ⟨found, services⟩, rfl, h1, h⟩
  · exact .inl h
  rw [gets_ofPy_bind] at h
  rcases h with ⟨e, rfl, he, rfl⟩ | ⟨cid, hc, h⟩
  · exact .inr ⟨found, services, by simpa using h1, .inl ⟨e, he, rfl⟩⟩
  · rw [gets_pure] at h
    obtain ⟨rfl, rfl⟩ := h
    exact .inr ⟨found, services, by simpa using h1, .inr ⟨cid, hc, rfl⟩⟩

/-- the requests a program makes, and its result, if requests are answered by a function -/
def answer (net : Str → Option Str → Except PyErr Page) : Prog α → List Get × Except PyErr α
  | .done r => ([], r)
  | .get u a k => (⟨u, a, net u a⟩ :: (answer net (k (net u a))).1, (answer net (k (net u a))).2)

theorem gets_answer (net : Str → Option Str → Except PyErr Page) (p : Prog α) : Gets p (answer net p).1 (answer net p).2 := by
  induction p with
  | done r => exact ⟨rfl, rfl⟩
  | get u a k ih => exact ⟨_, _, rfl, ih _⟩

theorem gets_of_answer {net : Str → Option Str → Except PyErr Page} {p : Prog α} {r : Except PyErr α}
    (h : (answer net p).2 = r) : ∃ gets, Gets p gets r := ⟨_, h ▸ gets_answer net p⟩

end Discover
