import Verif.Lemmas.Url
import Verif.Lemmas.Py
import Verif.Spec.Shown
import Verif.Props.Urinorm
import Verif.Props.DiscoverXri
/-! # C79: what is shown of an identifier, and what an endpoint supports -/

namespace Props
open Py Message Discover Consumer Spec

theorem defrag (U : Url.Uni) (u f : Str) (h : Showable u) (hf : f ≠ []) (hc : ∀ c ∈ f, 32 < c.toNat) :
    Url.urldefrag U (u ++ '#' :: f) = .ok (u, f) := by
  obtain ⟨scheme, host, path, more, rfl, hs, hn, hh, hp, hlast, hm, hall⟩ := h
  have hsne : scheme ≠ [] := by rcases hs with rfl | rfl <;> simp
  obtain ⟨q, hq, hq', hqc⟩ : ∃ q, more = (if q = [] then [] else '?' :: q) ∧ '#' ∉ q ∧ ∀ c ∈ q, 32 < c.toNat := by
    rcases hm with rfl | ⟨q, rfl, hq, hq'⟩
    · exact ⟨[], rfl, by simp, by simp⟩
    · exact ⟨q, by rw [if_neg hq], hq', fun c hc => hall c (by simp [hc])⟩
  have hu : scheme ++ t!"://" ++ host ++ t!"/" ++ path ++ more ++ '#' :: f =
      Url.urlunsplit ⟨scheme, host, '/' :: path, q, f⟩ := by
    rw [Url.urlunsplit_http _ _ _ _ _ hsne hn, ← hq, if_neg hf]; simp
  have hdelim : ∀ c ∈ host, Url.isDelim c = false := by
    intro c hc
    have := (hh c hc).2
    simp only [List.mem_cons, not_or] at this
    simp [Url.isDelim, this]
  have hb : Url.bracketsOk U host = true := by
    have h1 : '[' ∉ host := fun h => (hh _ h).2 (by decide)
    have h2 : ']' ∉ host := fun h => (hh _ h).2 (by decide)
    rw [Url.bracketsOk, if_neg (by simp [h1, h2]), if_neg (by simp [h1])]
  have hsplit := Url.urlsplit_urlunsplit U scheme host path q f hs hn hdelim hb
    (.inl (by rw [isAscii, List.all_eq_true]; intro c hc; simpa using (hh c hc).1))
    ⟨fun h => hp _ h (by decide), fun h => hp _ h (by decide)⟩ hq' (by
      intro c hm
      simp only [List.mem_append] at hm
      rcases hm with ((hm | hm) | hm) | hm
      · exact hall c (by simp [hm])
      · exact hall c (by simp [hm])
      · exact hqc c hm
      · exact hc c hm)
  rw [← hu] at hsplit
  rw [Url.urldefrag, if_pos (by simp), Url.urlparse, hsplit]
  simp only [ok_bind, pure_eq_ok]
  have hend : ∀ path' params, (if scheme ∈ Url.usesParams ∧ ';' ∈ '/' :: path then Url.splitParams ('/' :: path) else ('/' :: path, [])) =
      (path', params) → (if params ≠ [] then path' ++ ';' :: params else path') = '/' :: path := by
    intro path' params he
    split at he
    · rw [Url.splitParams] at he
      split at he
      · next a last hr =>
        have h1 := (rcut_eq_some _ _ _ _ hr).1
        split at he
        · next b par h2 =>
          have h3 := (cut_eq_some_iff ..).1 h2
          simp only [Prod.mk.injEq] at he
          obtain ⟨rfl, rfl⟩ := he
          have hpar : par ≠ [] := by
            rintro rfl
            rw [h3.1] at h1
            have hl : ('/' :: path).getLast? = some ';' := by
              rw [h1, show a ++ '/' :: (b ++ ';' :: []) = (a ++ '/' :: b) ++ [';'] by simp, List.getLast?_concat]
            cases path with
            | nil => simp at hl
            | cons x y => rw [List.getLast?_cons_cons] at hl; exact hlast hl
          rw [if_pos hpar, h1, h3.1]; simp
        · simp only [Prod.mk.injEq] at he
          rw [← he.1, ← he.2]; simp
      · next hr =>
        exfalso
        have : '/' ∉ '/' :: path := (rcut_eq_none_iff ..).1 hr
        simp at this
    · simp only [Prod.mk.injEq] at he
      rw [← he.1, ← he.2]; simp
  generalize hx : (if scheme ∈ Url.usesParams ∧ ';' ∈ '/' :: path then Url.splitParams ('/' :: path) else ('/' :: path, [])) = x
  obtain ⟨path', params⟩ := x
  have := hend _ _ hx
  simp only [Url.urlunparse, this]
  rw [Url.urlunsplit_http _ _ _ _ _ hsne hn, ← hq]
  simp

/-- **C79** What a response says to show to the user: nothing if it does not know for whom it is; the name that was typed for an
    i-name; and else the claimed identifier without its fragment. -/
theorem c79_shown (U : Url.Uni) (r : Response) :
    (r.endpoint = none → r.getDisplayIdentifier U = .ok none) ∧
    ∀ e, r.endpoint = some e →
      (∀ name, e.displayIdentifier = some name → r.getDisplayIdentifier U = .ok (some name)) ∧
      (e.displayIdentifier = none → e.claimedId = none → r.getDisplayIdentifier U = .ok none) ∧
      (∀ u, e.displayIdentifier = none → e.claimedId = some u → '#' ∉ u → r.getDisplayIdentifier U = .ok (some u)) ∧
      ∀ u f, e.displayIdentifier = none → e.claimedId = some (u ++ '#' :: f) → Showable u → f ≠ [] → (∀ c ∈ f, 32 < c.toNat) →
        r.getDisplayIdentifier U = .ok (some u) := by
  refine ⟨fun h => by rw [Response.getDisplayIdentifier, h], fun e he => ⟨fun name h => ?_, fun h h' => ?_, fun u h h' hn => ?_,
    fun u f h h' hu hf hc => ?_⟩⟩
  · simp only [Response.getDisplayIdentifier, he, Endpoint.getDisplayIdentifier, h]
  · simp only [Response.getDisplayIdentifier, he, Endpoint.getDisplayIdentifier, h, h']
  · simp only [Response.getDisplayIdentifier, he, Endpoint.getDisplayIdentifier, h, h', Url.urldefrag, if_neg hn, ok_bind, pure_eq_ok]
  · simp only [Response.getDisplayIdentifier, he, Endpoint.getDisplayIdentifier, h, h', defrag U u f hu hf hc, ok_bind, pure_eq_ok]

/-- **C79** So what is shown after a login with an i-name is that name, not the CanonicalID by which the user is known. -/
theorem c79_iname (W : Discover.World) (hs : ∀ i l, (W.shuffle i l).Perm l) (hu : ∀ i l, (W.shuffleURIs i l).Perm l) (id : Str)
    (gets : List Get) (name : Str) (services : List Endpoint) (h : Gets (discoverXRI W id) gets (.ok (name, services)))
    (r : Response) (e : Endpoint) (he : e ∈ services) (hr : r.endpoint = some e) :
    r.getDisplayIdentifier W.uni = .ok (some (bare id)) ∧ ∃ cid, e.canonicalID = some cid ∧ r.identityUrl = some cid := by
  obtain ⟨-, h | ⟨cid, pre, g, post, page, root, -, -, -, -, -, h⟩⟩ := c61_identified W hs hu id gets name services h
  · rw [h] at he; cases he
  · obtain ⟨h1, h2, h3, -⟩ := h e he
    refine ⟨((c79_shown W.uni r).2 e hr).1 _ h3, cid, h1, ?_⟩
    cases r with
    | success e' m s => cases hr; exact h2
    | cancel o | failure o x | setupNeeded o x =>
      rw [show o = some e from hr]; exact h2

example : ∃ gets services e, Gets (discoverXRI disco1 t!"xri://=me") gets (.ok (t!"=me", services)) ∧ e ∈ services ∧
    (Response.cancel (some e)).getDisplayIdentifier disco1.uni = .ok (some t!"=me") ∧
    (Response.cancel (some e)).identityUrl = some t!"xri://=!1" := by
  have h := gets_answer (resolver0 [(200, [1]), (404, []), (500, []), (404, [])]) (discoverXRI disco1 t!"xri://=me")
  rw [show (answer (resolver0 [(200, [1]), (404, []), (500, []), (404, [])]) (discoverXRI disco1 t!"xri://=me")).2 =
    .ok (t!"=me", [⟨some t!"xri://=!1", t!"http://op/", [OPENID_2_0_TYPE], none, some t!"xri://=!1", true, some t!"=me"⟩]) by
      decide +kernel] at h
  exact ⟨_, _, _, h, List.mem_singleton.2 rfl, rfl, rfl⟩

example : Showable t!"http://u.example:8080/a;b/c?d=e" :=
  ⟨t!"http", t!"u.example:8080", t!"a;b/c", t!"?d=e", rfl, .inl rfl, by decide, by decide, by decide, by decide,
    .inr ⟨_, rfl, by decide, by decide⟩, by decide⟩

/-- **C79**, exceptions: a question mark or a semicolon with nothing after it is not shown, if there is a fragment; and a
    claimed identifier with half a bracket cannot be shown if it has a fragment. -/
theorem c79_dropped :
    let shown c := (Endpoint.mk (some c) t!"http://op.example/" [] none none false none).getDisplayIdentifier uni0
    shown t!"http://u.example/?#f" = .ok (some t!"http://u.example/") ∧ shown t!"http://u.example/?" = .ok (some t!"http://u.example/?") ∧
    shown t!"http://u.example/a;#f" = .ok (some t!"http://u.example/a") ∧ shown t!"http://[u#f" = .error .valueError := by
  decide +kernel

/-- **C79** What an endpoint supports: the types it is declared with; and an endpoint where the provider chooses the user
    supports OpenID 2 logins for a given one too. -/
theorem c79_supports (e : Endpoint) (t : Str) :
    (e.supportsType t = true ↔ t ∈ e.typeUris ∨
      t = t!"http://specs.openid.net/auth/2.0/signon" ∧ t!"http://specs.openid.net/auth/2.0/server" ∈ e.typeUris) ∧
    (e.usesExtension t = true ↔ t ∈ e.typeUris) ∧
    (e.isOPIdentifier = true ↔ t!"http://specs.openid.net/auth/2.0/server" ∈ e.typeUris) ∧
    (e.compatibilityMode = true ↔ t!"http://specs.openid.net/auth/2.0/server" ∉ e.typeUris ∧
      t!"http://specs.openid.net/auth/2.0/signon" ∉ e.typeUris) := by
  refine ⟨?_, ?_, ?_, ?_⟩
  · simp only [Endpoint.supportsType, Endpoint.isOPIdentifier, Bool.or_eq_true, Bool.and_eq_true,
      List.contains_iff_mem, OPENID_2_0_TYPE, OPENID_IDP_2_0_TYPE]
    exact or_congr Iff.rfl (and_congr decide_eq_true_iff Iff.rfl)
  · simp only [Endpoint.usesExtension, List.contains_iff_mem]
  · simp only [Endpoint.isOPIdentifier, List.contains_iff_mem, OPENID_IDP_2_0_TYPE]
  · rw [Endpoint.compatibilityMode, Endpoint.preferredNamespace]
    by_cases h1 : t!"http://specs.openid.net/auth/2.0/server" ∈ e.typeUris <;>
    by_cases h2 : t!"http://specs.openid.net/auth/2.0/signon" ∈ e.typeUris
    all_goals simp only [List.contains_iff_mem, Bool.or_eq_true, OPENID_2_0_TYPE, OPENID_IDP_2_0_TYPE, h1, h2]
    all_goals decide

example : ∃ e : Endpoint, e.supportsType t!"http://specs.openid.net/auth/2.0/signon" = true ∧
    t!"http://specs.openid.net/auth/2.0/signon" ∉ e.typeUris ∧ e.compatibilityMode = false :=
  ⟨⟨none, t!"http://op.example/", [t!"http://specs.openid.net/auth/2.0/server"], none, none, true, none⟩, by decide, by decide, by decide⟩

end Props
