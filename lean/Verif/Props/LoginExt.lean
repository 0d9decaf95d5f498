import Verif.Props.Login
import Verif.Props.Sreg
import Verif.Props.AxArrive
import Verif.Props.PapeArrive
/-! # C76: a login carries what the relying party asks for, and what the provider answers -/

namespace Props
open Py Message Association Store Discover Consumer Spec Extend

/-- a namespace with an argument has an alias -/
theorem alias_of_arg {reg : Dict Str Str} {m : Msg} (hb : Built reg m) {u k v : Str} (hu : u ≠ t!"sreg")
    (h : m.getArg (.uri u) k = .ok (some v)) : m.namespaces.getAlias u ≠ none := by
  have hfix : m.fixNS (.uri u) = .ok (.uri u) := by rw [Msg.fixNS, if_neg (by simpa using hu)]
  rw [Msg.getArg, hfix] at h
  simp only [ok_bind, pure_eq_ok, Except.ok.injEq] at h
  have := (minv_built reg m hb).known u k (by rw [Dict.mem_keys_iff, h]; rfl)
  intro h0
  rw [NamespaceMap.getAlias] at h0
  rw [h0] at this
  cases this

theorem sreg_asked_of {reg : Dict Str Str} {m : Msg} (hb : Built reg m) {version : Str} {X : List Extension}
    (hg : Gives version X (fun u d => m.getArgs (.uri u) = .ok d)) {R : Sreg.Request} (hR : Proper R)
    (hns : R.nsUri = Sreg.nsUri11) {alias : Str} (hx : ⟨R.nsUri, alias, R.getExtensionArgs⟩ ∈ X) (hne : R.getExtensionArgs ≠ []) :
    Sreg.fromOpenIDRequest m = .ok { R with policyUrl := policyOf R.policyUrl } := by
  obtain ⟨d, h1, hw, hs⟩ := hg.1 _ hx
  obtain ⟨_, _, _, _⟩ := R
  cases hns
  have h1 : m.getArgs (.uri Sreg.nsUri11) = .ok d := h1
  obtain ⟨⟨k, v⟩, rest, hcons⟩ := List.exists_cons_of_ne_nil hne
  have hk : d.get? k = some v := by rw [hs, hcons]; simp [Dict.get?_cons]
  have ha := alias_of_arg hb (by decide) ((c09_getArgs reg m hb _ _ h1).2 k |>.trans (by rw [hk]))
  rcases sreg_namespace reg m hb with ⟨-, h2⟩ | ⟨h2, -⟩ | ⟨h2, -⟩ | ⟨h2, -⟩
  · rw [Sreg.fromOpenIDRequest, h2]
    simp only [ok_bind]
    rw [h1]
    simp only [ok_bind]
    have h3 : Sreg.Request.parseExtensionArgs { nsUri := Sreg.nsUri11 } d false = _ := c46_round_trip _ hR d hs false
    rw [h3]; rfl
  all_goals exact absurd h2 ha

/-- **C76** The provider reads the questions of simple registration that were attached to the request. -/
theorem c76_sreg_asked {reg : Dict Str Str} {m : Msg} (hb : Built reg m) {version : Str} {X : List Extension}
    (hg : Gives version X (fun u d => m.getArgs (.uri u) = .ok d)) {R : Sreg.Request} (hR : Proper R)
    (hns : R.nsUri = t!"http://openid.net/extensions/sreg/1.1") {alias : Str} (hx : ⟨R.nsUri, alias, R.getExtensionArgs⟩ ∈ X) (hne : R.getExtensionArgs ≠ []) :
    Sreg.fromOpenIDRequest m = .ok { R with policyUrl := policyOf R.policyUrl } := by
  apply sreg_asked_of <;> assumption

theorem sreg_answered_of {reg : Dict Str Str} {m : Msg} (hb : Built reg m) {version : Str} {Y : List Extension} {signed : List Str}
    (hg : Gives version Y (fun u d => getSignedNS m signed (.uri u) = .ok (some d))) {R : Sreg.Request} (hR : Proper R)
    (hns : R.nsUri = Sreg.nsUri11) {data : Dict Str (Option Str)} {alias : Str}
    (hy : ⟨R.nsUri, alias, (Sreg.extractResponse R data).getExtensionArgs⟩ ∈ Y)
    (hsome : ∃ f v, wanted R f ≠ none ∧ data.get? f = some (some v)) :
    ∃ d, Sreg.fromSuccessResponse m signed true = .ok (m, some ⟨d, R.nsUri⟩) ∧
      ∀ f v, d.get? f = some v ↔ wanted R f ≠ none ∧ data.get? f = some (some v) := by
  obtain ⟨-, hw, hex⟩ := c46_extract R data
  obtain ⟨d, h1, hwd, hs⟩ := hg.1 _ hy
  simp only at h1 hs
  rw [hns] at h1
  obtain ⟨f, v, hf⟩ := hsome
  have hk : d.get? f = some v := by rw [hs]; exact (hex f v).2 hf
  have hargs : m.getArgs (.uri Sreg.nsUri11) = .ok d := by
    rw [getSignedNS] at h1
    obtain ⟨a, g1, h1⟩ := bind_eq_ok.1 h1
    obtain ⟨b, g2, h1⟩ := bind_eq_ok.1 h1
    cases b with
    | false => simp at h1
    | true => simp at h1; rw [g1, h1]
  have ha := alias_of_arg hb (by decide) ((c09_getArgs reg m hb _ _ hargs).2 f |>.trans (by rw [hk]))
  have hd : ∀ g w, (Sreg.pickFields d).get? g = some w ↔ wanted R g ≠ none ∧ data.get? g = some (some w) := by
    intro g w
    rw [(pickFields_get d).2, hs]
    show _ ∧ (Sreg.extractResponse R data).data.get? g = _ ↔ _
    rw [hex]
    constructor
    · exact fun h => h.2
    · refine fun h => ⟨?_, h⟩
      apply hR.2
      have h' := h.1
      unfold wanted at h'
      simp only [List.mem_append]
      split at h'
      · exact .inl (by assumption)
      · split at h'
        · exact .inr (by assumption)
        · exact absurd rfl h'
  rcases sreg_namespace reg m hb with ⟨-, h2⟩ | ⟨h2, -⟩ | ⟨h2, -⟩ | ⟨h2, -⟩
  · refine ⟨Sreg.pickFields d, ?_, hd⟩
    rw [Sreg.fromSuccessResponse, h2]
    simp only [ok_bind]
    rw [extensionResponse, if_pos rfl, h1, hns]
    cases d with
    | nil => cases hk
    | cons p ps => rfl
  all_goals exact absurd h2 ha

/-- **C76** The relying party reads the answers of simple registration: for the fields that were asked for, what the provider
    has for them. -/
theorem c76_sreg_answered {reg : Dict Str Str} {m : Msg} (hb : Built reg m) {version : Str} {Y : List Extension} {signed : List Str}
    (hg : Gives version Y (fun u d => getSignedNS m signed (.uri u) = .ok (some d))) {R : Sreg.Request} (hR : Proper R)
    (hns : R.nsUri = t!"http://openid.net/extensions/sreg/1.1") {data : Dict Str (Option Str)} {alias : Str}
    (hy : ⟨R.nsUri, alias, (Sreg.extractResponse R data).getExtensionArgs⟩ ∈ Y)
    (hsome : ∃ f v, wanted R f ≠ none ∧ data.get? f = some (some v)) :
    ∃ d, Sreg.fromSuccessResponse m signed true = .ok (m, some ⟨d, R.nsUri⟩) ∧
      ∀ f v, d.get? f = some v ↔ wanted R f ≠ none ∧ data.get? f = some (some v) := by
  apply sreg_answered_of <;> assumption

theorem ax_asked_of {D : ExtraDigits} (hD : D 'u' = none) (U : Url.Uni) {m : Msg} {version : Str} {X : List Extension}
    (hg : Gives version X (fun u d => m.getArgs (.uri u) = .ok d)) {F : Ax.FetchRequest} (hF : Made F) {args : Dict Str Str}
    (hargs : F.getExtensionArgs = .ok args) {alias : Str} (hx : ⟨Ax.nsUri, alias, args⟩ ∈ X)
    (hne : ∀ u i, F.requested.get? u = some i → i.alias ≠ some [])
    (hc : ∀ u i, F.requested.get? u = some i → Countable i.count) :
    ∃ (F' : Ax.FetchRequest), Ax.FetchRequest.fromOpenIDRequest U D m = .ok (some F') ∧ Made F' ∧ F'.updateUrl = none ∧
      (∃ args', F'.getExtensionArgs = .ok args') ∧
      ∃ name : Str → Str, (∀ u i a, F.requested.get? u = some i → i.alias = some a → name u = a) ∧
      ∀ u, F'.requested.get? u = (F.requested.get? u).map (fun i => { i with alias := some (name u) }) := by
  obtain ⟨d, h1, hw, hs⟩ := hg.1 _ hx
  obtain ⟨name, r', g1, g2, g3, g4⟩ := c45_fetch_round_trip hD hF hargs hne hc d hw hs
  obtain ⟨k1, k2, k3⟩ := c45_parsed_made D d hw r' g1
  refine ⟨r', ?_, k1, g2, ?_, name, g3, g4⟩
  · simp only [Ax.FetchRequest.fromOpenIDRequest, h1, ok_bind, g1, Ax.unlessNot, Ax.checkUpdate, g2, pure_eq_ok]
  · apply c45_fetch_args_ok k1
    · intro u i a hu ha
      obtain ⟨-, b, hb, hn⟩ := k2 u i hu
      rw [ha] at hb; cases hb; exact hn
    · intro u v i j a hu hv hi hj
      exact k3 u v i j hu hv (hi.trans hj.symm)
    · left
      intro u i hu
      obtain ⟨-, b, hb, hn⟩ := k2 u i hu
      rw [hb]; simp

/-- **C76** The provider reads the attributes that were asked for. -/
theorem c76_ax_asked {D : ExtraDigits} (hD : D 'u' = none) (U : Url.Uni) {m : Msg} {version : Str} {X : List Extension}
    (hg : Gives version X (fun u d => m.getArgs (.uri u) = .ok d)) {F : Ax.FetchRequest} (hF : Made F) {args : Dict Str Str}
    (hargs : F.getExtensionArgs = .ok args) {alias : Str} (hx : ⟨t!"http://openid.net/srv/ax/1.0", alias, args⟩ ∈ X)
    (hne : ∀ u i, F.requested.get? u = some i → i.alias ≠ some [])
    (hc : ∀ u i, F.requested.get? u = some i → Countable i.count) :
    ∃ (F' : Ax.FetchRequest), Ax.FetchRequest.fromOpenIDRequest U D m = .ok (some F') ∧ Made F' ∧ F'.updateUrl = none ∧
      (∃ args', F'.getExtensionArgs = .ok args') ∧
      ∃ name : Str → Str, (∀ u i a, F.requested.get? u = some i → i.alias = some a → name u = a) ∧
      ∀ u, F'.requested.get? u = (F.requested.get? u).map (fun i => { i with alias := some (name u) }) := by
  apply ax_asked_of <;> assumption

theorem ax_answered_of (D : ExtraDigits) {m : Msg} {version : Str} {Y : List Extension} {signed : List Str}
    (hg : Gives version Y (fun u d => getSignedNS m signed (.uri u) = .ok (some d)))
    {A : Ax.FetchResponse} {F : Ax.FetchRequest} (hA : A.request = some F) (hF : Made F) (hd : Dict.WF A.data)
    {qargs : Dict Str Str} (hq : F.getExtensionArgs = .ok qargs)
    (hasked : ∀ u vs, A.data.get? u = some vs → ∃ i, F.requested.get? u = some i)
    (hfew : ∀ u i, F.requested.get? u = some i → ¬ Exceeds i ((A.data.get? u).getD [])) :
    ∃ args, A.getExtensionArgs = .ok args ∧ ∀ alias, ⟨Ax.nsUri, alias, args⟩ ∈ Y →
    ∃ A', Ax.FetchResponse.fromSuccessResponse D m signed true = .ok (some A') ∧
      ∀ u, A'.data.get? u = (F.requested.get? u).map (fun _ => (A.data.get? u).getD []) := by
  rcases c45_response_args D hA hF hq hd with ⟨⟨u, h1, h2⟩, -⟩ | ⟨-, ⟨u, i, h1, h2⟩, -⟩ | ⟨-, -, args, name, update, e, hw, hup, -, -, -, hrt⟩
  · obtain ⟨vs, hvs⟩ := Option.isSome_iff_exists.1 h1
    obtain ⟨i, hi⟩ := hasked u vs hvs
    rw [h2] at hi; cases hi
  · exact absurd h2 (hfew u i h1)
  refine ⟨args, e, fun alias hy => ?_⟩
  obtain ⟨d, h1, hwd, hs⟩ := hg.1 _ hy
  simp only at h1 hs
  obtain ⟨d', g1, -, g3⟩ := hrt d hwd hs
  refine ⟨{ data := d', updateUrl := update.filter (fun u => !u.isEmpty) }, ?_, g3⟩
  simp only [Ax.FetchResponse.fromSuccessResponse, extensionResponse, if_pos, h1, ok_bind, g1, Ax.unlessNot]

/-- **C76** The relying party reads the values of the attributes that were asked for. -/
theorem c76_ax_answered (D : ExtraDigits) {m : Msg} {version : Str} {Y : List Extension} {signed : List Str}
    (hg : Gives version Y (fun u d => getSignedNS m signed (.uri u) = .ok (some d)))
    {A : Ax.FetchResponse} {F : Ax.FetchRequest} (hA : A.request = some F) (hF : Made F) (hd : Dict.WF A.data)
    {qargs : Dict Str Str} (hq : F.getExtensionArgs = .ok qargs)
    (hasked : ∀ u vs, A.data.get? u = some vs → ∃ i, F.requested.get? u = some i)
    (hfew : ∀ u i, F.requested.get? u = some i → ¬ Exceeds i ((A.data.get? u).getD [])) :
    ∃ args, A.getExtensionArgs = .ok args ∧ ∀ alias, ⟨t!"http://openid.net/srv/ax/1.0", alias, args⟩ ∈ Y →
    ∃ A', Ax.FetchResponse.fromSuccessResponse D m signed true = .ok (some A') ∧
      ∀ u, A'.data.get? u = (F.requested.get? u).map (fun _ => (A.data.get? u).getD []) := by
  apply ax_answered_of <;> assumption

theorem pape_asked_of (D : ExtraDigits) {m : Msg} {version : Str} {X : List Extension}
    (hg : Gives version X (fun u d => m.getArgs (.uri u) = .ok d)) {P : Pape.Request} (hP : RequestOk P)
    (hp : Listable P.policies) (hnd : P.policies.Nodup)
    (hw : ∀ a u, u ∈ P.levelTypes → P.aliases.get? a = some u → WordLike a) :
    ∃ args, P.getExtensionArgs = .ok args ∧ ∀ alias, ⟨Pape.nsUri, alias, args⟩ ∈ X →
    ∃ P', Pape.Request.fromOpenIDRequest D m = .ok (some P') ∧ P'.policies = P.policies ∧ P'.maxAge = P.maxAge ∧
      P'.levelTypes = P.levelTypes := by
  obtain ⟨args, h1, h2⟩ := c47_request_round_trip D hP hp hnd hw
  refine ⟨args, h1, fun alias hx => ?_⟩
  obtain ⟨d, g1, hwd, hs⟩ := hg.1 _ hx
  obtain ⟨P', k1, -, k2, k3, k4⟩ := h2 d m.isOpenID1 false hs
  refine ⟨P', ?_, k2, k3, k4⟩
  obtain ⟨args', name, l1, l2, l3, l4⟩ := c47_request_args P hP
  rw [h1] at l1; cases l1
  have : d.isEmpty = false := by
    have := (hs t!"preferred_auth_policies").trans ((l4 _ _).2 (.inl ⟨rfl, rfl⟩))
    cases d with
    | nil => cases this
    | cons => rfl
  simp only [Pape.Request.fromOpenIDRequest, g1, ok_bind, this, k1]
  rfl

/-- **C76** The provider reads the policies that were asked for. -/
theorem c76_pape_asked (D : ExtraDigits) {m : Msg} {version : Str} {X : List Extension}
    (hg : Gives version X (fun u d => m.getArgs (.uri u) = .ok d)) {P : Pape.Request} (hP : RequestOk P)
    (hp : Listable P.policies) (hnd : P.policies.Nodup)
    (hw : ∀ a u, u ∈ P.levelTypes → P.aliases.get? a = some u → WordLike a) :
    ∃ args, P.getExtensionArgs = .ok args ∧ ∀ alias, ⟨t!"http://specs.openid.net/extensions/pape/1.0", alias, args⟩ ∈ X →
    ∃ P', Pape.Request.fromOpenIDRequest D m = .ok (some P') ∧ P'.policies = P.policies ∧ P'.maxAge = P.maxAge ∧
      P'.levelTypes = P.levelTypes := by
  apply pape_asked_of <;> assumption

theorem pape_answered_of (D : ExtraDigits) {m : Msg} {version : Str} {Y : List Extension} {signed : List Str}
    (hg : Gives version Y (fun u d => getSignedNS m signed (.uri u) = .ok (some d))) {A : Pape.Response} (hA : ResponseOk A)
    (hns : ∀ u l a, A.levels.get? u = some l → A.aliases.get? a = some u → startsWith a t!"ns." = false)
    (ht : ∀ t, A.authTime = some t → IsTime D t) (hp : Listable A.policies)
    (hnone : t!"none" ∉ A.policies ∧ Pape.AUTH_NONE ∉ A.policies) :
    ∃ args, A.getExtensionArgs D = .ok args ∧ ∀ alias, ⟨Pape.nsUri, alias, args⟩ ∈ Y →
    ∃ A', Pape.Response.fromSuccessResponse D m signed = .ok (some A') ∧ A'.policies = A.policies ∧ A'.authTime = A.authTime ∧
      Dict.Same A'.levels A.levels := by
  obtain ⟨args, h1, h2⟩ := c47_response_round_trip D hA hns ht hp hnone
  refine ⟨args, h1, fun alias hy => ?_⟩
  obtain ⟨d, g1, hwd, hs⟩ := hg.1 _ hy
  obtain ⟨A', k1, -, k2, k3, k4⟩ := h2 d m.isOpenID1 false hwd hs
  refine ⟨A', ?_, k2, k3, k4⟩
  simp only [Pape.Response.fromSuccessResponse, g1, ok_bind, k1, pure_eq_ok]

/-- **C76** The relying party reads the policies, the time and the levels that the provider answered. -/
theorem c76_pape_answered (D : ExtraDigits) {m : Msg} {version : Str} {Y : List Extension} {signed : List Str}
    (hg : Gives version Y (fun u d => getSignedNS m signed (.uri u) = .ok (some d))) {A : Pape.Response} (hA : ResponseOk A)
    (hns : ∀ u l a, A.levels.get? u = some l → A.aliases.get? a = some u → startsWith a t!"ns." = false)
    (ht : ∀ t, A.authTime = some t → IsTime D t) (hp : Listable A.policies)
    (hnone : t!"none" ∉ A.policies ∧ Pape.AUTH_NONE ∉ A.policies) :
    ∃ args, A.getExtensionArgs D = .ok args ∧ ∀ alias, ⟨t!"http://specs.openid.net/extensions/pape/1.0", alias, args⟩ ∈ Y →
    ∃ A', Pape.Response.fromSuccessResponse D m signed = .ok (some A') ∧ A'.policies = A.policies ∧ A'.authTime = A.authTime ∧
      Dict.Same A'.levels A.levels := by
  apply pape_answered_of <;> assumption

/-! ## the statements at work -/

/-- what the relying party wants to know: of simple registration, -/
def asksSreg0 : Sreg.Request := { required := [t!"email"], optional := [t!"dob", t!"nickname"] }
/-- the attributes `axReq0`, and the policies `papeReq0` -/
def asks0 : List Extension :=
  [⟨Sreg.nsUri11, t!"sreg", asksSreg0.getExtensionArgs⟩, ⟨Ax.nsUri, t!"ax", axArgs0⟩, ⟨Pape.nsUri, t!"pape", papeArgs0⟩]

/-- what the provider knows of the user; there is no date of birth, and the country was not asked for -/
def knows0 : Dict Str (Option Str) := [(t!"email", some t!"u@u.example"), (t!"nickname", some []), (t!"dob", none), (t!"country", some t!"XX")]
/-- what it answers: of simple registration, two values of one attribute (`axResp0`), and `papeResp0` -/
def tells0 : List Extension :=
  [⟨Sreg.nsUri11, t!"sreg", (Sreg.extractResponse asksSreg0 knows0).getExtensionArgs⟩, ⟨Ax.nsUri, t!"ax", axRespArgs0⟩,
   ⟨Pape.nsUri, t!"pape", papeRespArgs0⟩]

theorem attachable_asks0 : Attachable t!"http://specs.openid.net/auth/2.0" [] asks0 :=
  ⟨by decide +kernel, by decide +kernel, by decide +kernel, by decide +kernel, by decide⟩
theorem attachable_tells0 : Attachable t!"http://specs.openid.net/auth/2.0" [] tells0 :=
  ⟨by decide +kernel, by decide +kernel, by decide +kernel, by decide +kernel, by decide⟩
theorem signable_tells0 : Signable tells0 := by decide +kernel

-- A login in which all three are asked for: the provider reads the questions, and the relying party the answers.
example : ∃ (r : Server.CheckIDRequest) (F : Ax.FetchRequest) (P : Pape.Request) (sc sp sc3 sp5 : MemStore.Kept) (s1 s2 : UserSession)
    (q' : Dict Str Str) (m : Msg) (signed : List Str) (d : Dict Str Str) (A : Ax.FetchResponse) (B : Pape.Response),
    Sreg.fromOpenIDRequest r.message = .ok asksSreg0 ∧
    (Ax.FetchRequest.fromOpenIDRequest uni0 noDigits r.message = .ok (some F) ∧
      (F.requested.get? t!"http://a/nick").map (·.count) = some .unlimited) ∧
    (Pape.Request.fromOpenIDRequest plainDigits r.message = .ok (some P) ∧ P.maxAge = some 3600) ∧
    live (MemStore.keptStep clock0) cenv74.now (webOf pairServer0 senv74 defaultAssociationOrder (fun _ _ => [])
      endpoint0.serverUrl (MemStore.keptStep clock0) (fun _ => .error .fetchingError) (fun _ _ => .error .fetchingError))
      (fun _ => .error .discoveryFailure)
      (complete pairConsumer0 cconf0 cenv74 s1 q' t!"HTTP://rp.example:80/back") sc sp =
        ((sc3, sp5), .ok (s2, .ok (.success endpoint0 m signed))) ∧
    (Sreg.fromSuccessResponse m signed true = .ok (m, some ⟨d, Sreg.nsUri11⟩) ∧ d.get? t!"email" = some t!"u@u.example" ∧
      d.get? t!"nickname" = some [] ∧ d.get? t!"dob" = none ∧ d.get? t!"country" = none) ∧
    (Ax.FetchResponse.fromSuccessResponse noDigits m signed true = .ok (some A) ∧
      A.data.get? t!"http://a/nick" = some [t!"n1", t!"n2"] ∧ A.data.get? t!"http://a/mail" = some []) ∧
    (Pape.Response.fromSuccessResponse plainDigits m signed = .ok (some B) ∧ B.policies = [t!"http://p/1"] ∧
      B.levels.get? t!"http://l/1" = some t!"high") := by
  obtain ⟨sc1, sp1, s1, req, -, h2, -, h10, h3, -, h4, h5⟩ := c76_login (W := pairConsumer0) (V := pairServer0) (C := cconf0)
    (n := defaultAssociationOrder) (E0 := cenv0) (E1 := senv0) (text := fun _ _ => [])
    (pages := fun _ => .error .fetchingError) (elsewhere := fun _ _ => .error .fetchingError) (anonymous := false)
    rfl rfl (by intro t k x; simp [pairServer0, sworld0, smac0])
    (by intro alias uri h; simp [pairConsumer0, pairServer0, sworld0] at h)
    (by intro alias uri h; simp [pairServer0, sworld0] at h) (fun _ => can0) (c74_memory_store clock0) (fun _ _ _ _ => ⟨_, rfl⟩)
    (MemStore.faithful clock0) (fun _ _ _ _ => ⟨_, rfl⟩) (disc := fun _ => .ok (t!"http://u.example/", [endpoint0]))
    (typed := t!"u.example") rfl askable0 (by simp) (by decide) none MemStore.keptInit MemStore.keptInit
    (by intro h a k; cases k) trivial
  obtain ⟨req', url, -, -, h6⟩ := h5 asks0 attachable_asks0 _ _ _ returnable0 false
  obtain ⟨r, resp, -, hr1, hr2, -, h6⟩ := h6 senv74 sp1 h2 (by decide) (by decide)
    (parameters url) (Dict.WF_ofPairs _) (fun _ => rfl)
  obtain ⟨resp', w, sp3, -, -, h7, -, ⟨q', hq'⟩, h8⟩ := h6 tells0 attachable_tells0 attachable_tells0 signable_tells0
  have hmade : ∀ h a, MemStore.keptView sc1 endpoint0.serverUrl h = some a → a.issued = 5 ∧
      a.lifetime = 1209600 ∧ ∃ b, Makes pairServer0 senv0 b ∧ SameAssociation a b := by
    intro h a k
    rcases h3.adds _ _ _ k with k | ⟨-, -, -, k1, k2, b, k3, k4, -⟩
    · cases k
    · exact ⟨k1, k2, b, k3, k4⟩
  obtain ⟨sc3, sp5, s2, m, signed, h9, hm1, hm2, -⟩ := h8 q' hq' cenv74 senv74 sc1 sp3 (fun _ => .error .discoveryFailure) h7 (by
      refine ⟨?_, ?_, fun _ _ _ h => h, fun _ _ _ h => h, by decide⟩
      · intro a hra
        obtain ⟨k1, -⟩ := h10 a hra
        obtain ⟨k2, k3, -⟩ := hmade _ _ k1
        exact ⟨k1, by rw [expired, k2, k3]; decide⟩
      · intro b hb
        cases hx : MemStore.keptView sc1 endpoint0.serverUrl b.handle with
        | none => rfl
        | some a =>
          obtain ⟨-, -, b', hb', hs⟩ := hmade _ _ hx
          have hh := (h2 _ _ hx).1
          rw [hs.handle] at hh
          obtain ⟨_, t1, -, -, -, e1⟩ := hb
          obtain ⟨_, t2, -, -, -, e2⟩ := hb'
          rw [e1, e2] at hh
          exfalso
          revert hh
          rcases t1 with ⟨t1, -⟩ | ⟨t1, -⟩ <;> rcases t2 with ⟨t2, -⟩ | ⟨t2, -⟩ <;> rw [t1, t2] <;> decide) ⟨by decide, fun h => by cases h4 _ _ _ h⟩
  have hsreg : Proper asksSreg0 := by rw [Proper]; decide +kernel
  have hmade0 : Made axReq0 := (c45_history {} (made_empty none) _).1
  have hreqd : ∀ u i, axReq0.requested.get? u = some i → i = ⟨t!"http://a/mail", .num 1, true, some t!"mail"⟩ ∨
      i = ⟨t!"http://a/nick", .unlimited, false, none⟩ := by
    intro u i h
    have := Dict.get?_mem _ _ _ h
    rw [show axReq0.requested = [(t!"http://a/mail", ⟨t!"http://a/mail", .num 1, true, some t!"mail"⟩),
      (t!"http://a/nick", ⟨t!"http://a/nick", .unlimited, false, none⟩)] by decide +kernel] at this
    simp only [List.mem_cons, Prod.mk.injEq, List.not_mem_nil, or_false] at this
    rcases this with ⟨-, h⟩ | ⟨-, h⟩
    · exact .inl h
    · exact .inr h
  obtain ⟨F, f1, -, -, -, name, -, f2⟩ := c76_ax_asked (D := noDigits) rfl uni0 hr2 hmade0 (args := axArgs0) (by decide +kernel)
    (alias := t!"ax") (by decide +kernel) (by intro u i h; rcases hreqd u i h with rfl | rfl <;> decide)
    (by intro u i h; rcases hreqd u i h with rfl | rfl <;> simp [Countable])
  obtain ⟨args, g1, g2⟩ := c76_pape_asked plainDigits hr2 (P := papeReq0) (c47_request_history _ (requestOk_new [] _) _).1
    (by decide +kernel) (by decide +kernel) (by
      intro a u _ h
      have := Dict.get?_mem _ _ _ h
      have hall : ∀ p ∈ papeReq0.aliases, p.1 ≠ [] ∧ ∀ c ∈ p.1, isSpace c = false := by decide +kernel
      exact hall _ this)
  rw [show papeReq0.getExtensionArgs = .ok papeArgs0 by decide +kernel] at g1; cases g1
  obtain ⟨P, p1, -, p2, -⟩ := g2 t!"pape" (by decide +kernel)
  obtain ⟨d, d1, d2⟩ := c76_sreg_answered (.parsed q' m hm1) hm2 (R := asksSreg0) hsreg rfl (data := knows0) (alias := t!"sreg")
    (by decide +kernel) ⟨t!"email", t!"u@u.example", by decide +kernel⟩
  obtain ⟨args, a1, a2⟩ := c76_ax_answered noDigits hm2 (A := axResp0) (F := axReq0) rfl hmade0 (by decide +kernel)
    (qargs := axArgs0) (by decide +kernel) (by
      intro u vs h
      have := Dict.get?_mem _ _ _ h
      rw [show axResp0.data = [(t!"http://a/nick", [t!"n1", t!"n2"])] by decide +kernel] at this
      simp only [List.mem_cons, Prod.mk.injEq, List.not_mem_nil, or_false] at this
      rw [this.1]
      exact ⟨⟨t!"http://a/nick", .unlimited, false, none⟩, by decide +kernel⟩) (by
      rintro u i h ⟨n, hn, hlt⟩
      rcases hreqd u i h with rfl | rfl
      · have hu := hmade0.key u _ h
        subst hu
        cases hn
        exact absurd hlt (by decide +kernel)
      · cases hn)
  rw [show axResp0.getExtensionArgs = .ok axRespArgs0 by decide +kernel] at a1; cases a1
  obtain ⟨A, a3, a4⟩ := a2 t!"ax" (by decide +kernel)
  obtain ⟨args, b1, b2⟩ := c76_pape_answered plainDigits hm2 (A := papeResp0) (c47_response_history _ (responseOk_new [] _) _).1
    (by
      intro u l a _ h
      have hall : ∀ p ∈ papeResp0.aliases, startsWith p.1 t!"ns." = false := by decide +kernel
      exact hall _ (Dict.get?_mem _ _ _ h)) (by
      intro t h
      rw [show papeResp0.authTime = some t!"2008-01-31T12:00:00Z" by decide +kernel] at h
      cases h
      exact (Pape.timeOk_iff _ _).1 (by decide +kernel)) (by decide +kernel) (by decide +kernel)
  rw [show papeResp0.getExtensionArgs plainDigits = .ok papeRespArgs0 by decide +kernel] at b1; cases b1
  obtain ⟨B, b3, b4, -, b5⟩ := b2 t!"pape" (by decide +kernel)
  have hd : ∀ f v, d.get? f = some v ↔ (Sreg.extractResponse asksSreg0 knows0).data.get? f = some v := by
    intro f v; rw [d2, (c46_extract asksSreg0 knows0).2.2]
  have hd' : ∀ f, d.get? f = (Sreg.extractResponse asksSreg0 knows0).data.get? f := fun f => Option.ext fun v => hd f v
  refine ⟨r, F, P, sc1, sp3, sc3, sp5, s1, s2, q', m, signed, d, A, B, ?_, ⟨f1, ?_⟩, ⟨p1, ?_⟩, h9, ⟨d1, ?_⟩, ⟨a3, ?_⟩, ⟨b3, ?_⟩⟩
  · exact c76_sreg_asked (.parsed _ _ hr1) hr2 hsreg rfl (alias := t!"sreg") (by decide +kernel) (by decide +kernel)
  · rw [f2, show axReq0.requested.get? t!"http://a/nick" = some ⟨t!"http://a/nick", .unlimited, false, none⟩ by decide +kernel]; rfl
  · rw [p2]; decide +kernel
  · rw [hd', hd', hd', hd']; decide +kernel
  · rw [a4, a4]; decide +kernel
  · rw [b4, b5]; decide +kernel

end Props
