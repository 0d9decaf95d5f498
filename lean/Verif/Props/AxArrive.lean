import Verif.Props.AxValues
import Verif.Lemmas.AxError
/-! # C45: attribute exchange messages that arrive -/

namespace Props
open Py Message Spec Association Ax

/-- an extension that arrives, as a response hands it out -/
theorem ax_response {m' : Msg} {args d : Dict Str Str} {signed : List Str} {signedOnly : Bool}
    (f3 : m'.getArgs (.uri nsUri) = .ok d) (f5 : Dict.Same d args)
    (f7 : ∀ k v, args.get? k = some v → m'.getKey (.uri nsUri) k = .ok (some (t!"openid." ++ (nsAlias ++ '.' :: k))))
    (hsigned : ∀ k v, args.get? k = some v → (t!"openid.ax." ++ k) ∈ signed) :
    Consumer.extensionResponse m' signed (.uri nsUri) signedOnly = .ok (some d) := by
  rw [Consumer.extensionResponse]
  cases signedOnly with
  | false => simp [f3]
  | true =>
    rw [if_pos rfl, Consumer.getSignedNS, f3]
    simp only [ok_bind]
    rw [allSigned_all]
    · rfl
    · intro k hk
      rw [Dict.mem_keys_iff, f5 k] at hk
      obtain ⟨v, hv⟩ := Option.isSome_iff_exists.1 hk
      rw [Consumer.isSigned, f7 k v hv]
      simp only [ok_bind, pure_eq_ok, Except.ok.injEq, List.contains_iff_mem]
      exact hsigned k v hv

/-- C45: A fetch request that is added to a message is the request that the receiver of the message makes of it. -/
theorem c45_fetch_arrives {X : ExtraDigits} (hX : X 'u' = none) (U : Url.Uni) {reg0 reg : Dict Str Str} {m : Msg} {oid : Str}
    (hm : Built reg0 m) (h : Sendable reg m oid) (hu : m.namespaces.getAlias t!"http://openid.net/srv/ax/1.0" = none)
    (ha : m.namespaces.getNamespaceURI (.name nsAlias) = none) (h1 : m.isOpenID1 = true → reg.get? nsAlias = some t!"http://openid.net/srv/ax/1.0")
    {r : FetchRequest} (hr : Made r) {args : Dict Str Str} (hargs : r.getExtensionArgs = .ok args)
    (hne : ∀ u i, r.requested.get? u = some i → i.alias ≠ some [])
    (hc : ∀ u i, r.requested.get? u = some i → Countable i.count) :
    ∃ m1, m.addExtension t!"http://openid.net/srv/ax/1.0" nsAlias args = .ok m1 ∧ ∀ q, Dict.WF q →
      (∀ k, q.get? (t!"openid." ++ k) = m1.toPostArgs.get? (t!"openid." ++ k)) →
      ∃ (m' : Msg) (name : Str → Str) (r' : FetchRequest), fromPostArgs reg q = .ok m' ∧ FetchRequest.fromOpenIDRequest U X m' = .ok (some r') ∧
        (∀ u i a, r.requested.get? u = some i → i.alias = some a → name u = a) ∧
        ∀ u, r'.requested.get? u = (r.requested.get? u).map (fun i => { i with alias := some (name u) }) := by
  obtain ⟨-, hw, -⟩ := c45_fetch_args hr hargs
  obtain ⟨m1, e1, e2⟩ := c62_arrives (uri := nsUri) (alias := nsAlias) hm h hw (by decide) (by decide) hu ha h1
  refine ⟨m1, e1, fun q hq hsent => ?_⟩
  obtain ⟨m', d, f1, f2, f3, f4, f5, f6, f7, f8, f9⟩ := e2 q hq hsent
  obtain ⟨name, r', g1, g2, g3, g4⟩ := c45_fetch_round_trip hX hr hargs hne hc d f4 f5
  refine ⟨m', name, r', f1, ?_, g3, g4⟩
  simp only [FetchRequest.fromOpenIDRequest, f3, ok_bind, g1, unlessNot, checkUpdate, g2, pure_eq_ok]

/-- C45: A store request that is added to a message has, for the receiver, the same values. -/
theorem c45_store_arrives (X : ExtraDigits) {reg0 reg : Dict Str Str} {m : Msg} {oid : Str}
    (hm : Built reg0 m) (h : Sendable reg m oid) (hu : m.namespaces.getAlias t!"http://openid.net/srv/ax/1.0" = none)
    (ha : m.namespaces.getNamespaceURI (.name nsAlias) = none) (h1 : m.isOpenID1 = true → reg.get? nsAlias = some t!"http://openid.net/srv/ax/1.0")
    {l : List (Str × Str)} (hl : ∀ x ∈ l, ',' ∉ x.2) {aliases : Option NamespaceMap}
    (hal : aliases = none ∧ l = [] ∨ ∃ m, aliases = some m ∧ aliasMap {} l = .ok m) {d : Data} (hd : Dict.WF d) :
    ∃ args m1, storeArgs aliases d = .ok args ∧ m.addExtension t!"http://openid.net/srv/ax/1.0" nsAlias args = .ok m1 ∧ ∀ q, Dict.WF q →
      (∀ k, q.get? (t!"openid." ++ k) = m1.toPostArgs.get? (t!"openid." ++ k)) →
      ∃ m' d', fromPostArgs reg q = .ok m' ∧ storeFromOpenIDRequest X m' = .ok (some d') ∧ Dict.Same d' d := by
  obtain ⟨args, -, hargs', hw, -⟩ := c45_store_args hl hal hd
  obtain ⟨args', hargs, hrt⟩ := c45_store_round_trip X hl hal hd
  rw [hargs'] at hargs; cases hargs
  obtain ⟨m1, e1, e2⟩ := c62_arrives (uri := nsUri) (alias := nsAlias) hm h hw (by decide) (by decide) hu ha h1
  refine ⟨args, m1, hargs', e1, fun q hq hsent => ?_⟩
  obtain ⟨m', dd, f1, f2, f3, f4, f5, f6, f7, f8, f9⟩ := e2 q hq hsent
  obtain ⟨d', g1, -, g2⟩ := hrt dd f4 f5
  refine ⟨m', d', f1, ?_, g2⟩
  simp only [storeFromOpenIDRequest, f3, ok_bind, g1, unlessNot]

/-- C45: A fetch response that is added to a message, where every argument is signed, has for the receiver the values of
    every type that was asked for. -/
theorem c45_response_arrives (X : ExtraDigits) {reg0 reg : Dict Str Str} {m : Msg} {oid : Str}
    (hm : Built reg0 m) (h : Sendable reg m oid) (hu : m.namespaces.getAlias t!"http://openid.net/srv/ax/1.0" = none)
    (ha : m.namespaces.getNamespaceURI (.name nsAlias) = none) (h1 : m.isOpenID1 = true → reg.get? nsAlias = some t!"http://openid.net/srv/ax/1.0")
    {r : FetchResponse} {req : FetchRequest} (hr : r.request = some req) (hmade : Made req)
    {qargs : Dict Str Str} (hq : req.getExtensionArgs = .ok qargs) (hd : Dict.WF r.data)
    {args : Dict Str Str} (hargs : r.getExtensionArgs = .ok args) :
    ∃ m1, m.addExtension t!"http://openid.net/srv/ax/1.0" nsAlias args = .ok m1 ∧ ∀ q signed signedOnly, Dict.WF q →
      (∀ k, q.get? (t!"openid." ++ k) = m1.toPostArgs.get? (t!"openid." ++ k)) →
      (∀ k v, args.get? k = some v → (t!"openid.ax." ++ k) ∈ signed) →
      ∃ m' r', fromPostArgs reg q = .ok m' ∧ FetchResponse.fromSuccessResponse X m' signed signedOnly = .ok (some r') ∧
        (∀ u, r'.data.get? u = (req.requested.get? u).map (fun _ => (r.data.get? u).getD [])) ∧
        (∀ u, u ≠ [] → (r'.updateUrl = some u ↔ req.updateUrl = some u ∨
          (req.updateUrl = none ∨ req.updateUrl = some []) ∧ r.updateUrl = some u)) := by
  rcases c45_response_args X hr hmade hq hd with ⟨-, e⟩ | ⟨-, -, e⟩ | ⟨-, -, args', name, update, e, hw, hup, -, -, -, hrt⟩
  · rw [hargs] at e; cases e
  · rw [hargs] at e; cases e
  rw [hargs] at e; cases e
  obtain ⟨m1, e1, e2⟩ := c62_arrives (uri := nsUri) (alias := nsAlias) hm h hw (by decide) (by decide) hu ha h1
  refine ⟨m1, e1, fun q signed signedOnly hqw hsent hsigned => ?_⟩
  obtain ⟨m', d, f1, f2, f3, f4, f5, f6, f7, f8, f9⟩ := e2 q hqw hsent
  obtain ⟨d', g1, -, g3⟩ := hrt d f4 f5
  refine ⟨m', { data := d', updateUrl := update.filter (fun u => !u.isEmpty) }, f1, ?_, g3, ?_⟩
  · simp only [FetchResponse.fromSuccessResponse, ax_response f3 f5 f7 hsigned, ok_bind, g1, unlessNot]
  · intro u hune
    have hfil : ∀ o : Option Str, o.filter (fun u => !u.isEmpty) = some u ↔ o = some u := by
      intro o
      rw [Option.filter_eq_some_iff]
      constructor
      · exact fun h => h.1
      · exact fun h => ⟨h, by simpa using hune⟩
    simp only [hfil]
    rcases hup with ⟨rfl, w, hw1, hw2⟩ | ⟨rfl, hw2⟩
    · constructor
      · exact .inl
      · rintro (h | ⟨h | h, -⟩)
        · exact h
        · rw [hw2] at h; cases h
        · rw [hw2] at h; cases h; exact absurd rfl hw1
    · constructor
      · exact fun h => .inr ⟨hw2, h⟩
      · rintro (h | ⟨-, h⟩)
        · rcases hw2 with h' | h' <;> rw [h] at h' <;> cases h'
          exact absurd rfl hune
        · exact h

/-- C45: The values of a fetch response that is made of a message are exactly those that the message has for each type;
    with `signed`, every argument of the extension is one of the signed ones. -/
theorem c45_from_success {X : ExtraDigits} {reg q : Dict Str Str} {m : Msg} (h : Arrived reg q m) {names : List Str}
    {signedOnly : Bool} {resp : FetchResponse}
    (hr : FetchResponse.fromSuccessResponse X m (names.map (t!"openid." ++ ·)) signedOnly = .ok (some resp)) :
    ∃ args, Dict.WF args ∧ (∀ k, m.getArg (.uri t!"http://openid.net/srv/ax/1.0") k = .ok (args.get? k)) ∧ ValuesOk X t!"fetch_response" args ∧
      (∀ u vs, resp.data.get? u = some vs ↔ ∃ a, typeOf args a = some u ∧ ValuesAre X args a vs) ∧
      resp.updateUrl = args.get? t!"update_url" ∧
      (signedOnly = true → ∀ k v, args.get? k = some v →
        ∃ n ∈ names, m.getKey (.uri t!"http://openid.net/srv/ax/1.0") k = .ok (some (t!"openid." ++ n)) ∧ q.get? (t!"openid." ++ n) = some v) := by
  rw [FetchResponse.fromSuccessResponse] at hr
  obtain ⟨o, h1, hr⟩ := bind_eq_ok.1 hr
  cases o with
  | none => cases hr
  | some args =>
    simp only at hr
    have hx : FetchResponse.parseExtensionArgs X {} args = .ok resp := by
      unfold unlessNot at hr
      split at hr
      · next a ha => cases hr; exact ha
      · split at hr <;> cases hr
    rw [FetchResponse.parseExtensionArgs] at hx
    obtain ⟨d, h2, hx⟩ := bind_eq_ok.1 hx
    simp only [pure_eq_ok, Except.ok.injEq] at hx
    have hboth : Dict.WF args ∧ (∀ k, m.getArg (.uri nsUri) k = .ok (args.get? k)) ∧
        (signedOnly = true → ∀ k v, args.get? k = some v →
          ∃ n ∈ names, m.getKey (.uri nsUri) k = .ok (some (t!"openid." ++ n)) ∧ q.get? (t!"openid." ++ n) = some v) := by
      cases signedOnly with
      | false =>
        obtain ⟨d, e, g1, g2⟩ := c39_extensionResponse_all h _ _ _ h1
        cases e
        exact ⟨g1, g2, by simp⟩
      | true =>
        obtain ⟨g1, g2, g3⟩ := c39_extensionResponse_signed h names _ _ h1
        refine ⟨g1, g2, fun _ k v hv => ?_⟩
        obtain ⟨f, k1, k2, k3, -⟩ := g3 k v hv
        exact ⟨f, k1, k2, k3⟩
    obtain ⟨g1, g2, g3⟩ := hboth
    obtain ⟨k1, k2⟩ := c45_values_parse X t!"fetch_response" args g1
    refine ⟨args, g1, g2, k1.1 ⟨d, h2⟩, ?_, ?_, g3⟩
    · rw [← hx]; exact (k2 d h2).2
    · rw [← hx]

/-- C45: A fetch request that is made of a message asks for exactly what the message asks for; a message without a mode
    of the extension, or with an empty one, has no request; if the request has an update URL, the realm that the message names (the
    return URL if it names none) covers it. -/
theorem c45_from_request {U : Url.Uni} {X : ExtraDigits} {reg : Dict Str Str} {m : Msg} (hm : Built reg m)
    {o : Option FetchRequest} (h : FetchRequest.fromOpenIDRequest U X m = .ok o) :
    ∃ args, m.getArgs (.uri t!"http://openid.net/srv/ax/1.0") = .ok args ∧ Dict.WF args ∧ (∀ k, m.getArg (.uri t!"http://openid.net/srv/ax/1.0") k = .ok (args.get? k)) ∧
      ((args.get? t!"mode" = none ∨ args.get? t!"mode" = some []) ∧ o = none ∨
       FetchOk X args ∧ ∃ r, o = some r ∧ FetchRequest.parseExtensionArgs X {} args = .ok r ∧
        ∀ u, u ≠ [] → args.get? t!"update_url" = some u → ∃ realm returnTo given, m.getArg .openid t!"return_to" = .ok returnTo ∧
          m.getArg .openid t!"realm" = .ok given ∧ given.or returnTo = some realm ∧
          ∃ L R, locate U realm = some L ∧ locate U u = some R ∧ IsRealm L ∧ Covers L R) := by
  rw [FetchRequest.fromOpenIDRequest] at h
  obtain ⟨args, h1, h⟩ := bind_eq_ok.1 h
  obtain ⟨hw, hg⟩ := c09_getArgs reg m hm _ args h1
  refine ⟨args, h1, hw, hg, ?_⟩
  obtain ⟨o', h2, h⟩ := bind_eq_ok.1 h
  unfold unlessNot at h2
  split at h2
  · next r hr =>
    cases h2
    right
    obtain ⟨k1, k2⟩ := c45_fetch_parse X args hw
    simp only at h
    obtain ⟨⟨⟩, h3, h⟩ := bind_eq_ok.1 h
    cases h
    refine ⟨k1.1 ⟨r, hr⟩, r, rfl, hr, ?_⟩
    intro u hu hupd
    rw [← (k2 r hr).2.1] at hupd
    obtain ⟨c, cs, rfl⟩ := List.exists_cons_of_ne_nil hu
    unfold checkUpdate at h3
    rw [hupd] at h3
    simp only at h3
    obtain ⟨ret, e1, h3⟩ := bind_eq_ok.1 h3
    obtain ⟨given, e2, h3⟩ := bind_eq_ok.1 h3
    split at h3
    · next d ds hor =>
      split at h3
      · cases h3
      · cases h3
      · next tr htr =>
        obtain ⟨b, e3, h3⟩ := bind_eq_ok.1 h3
        split at h3
        · next hb =>
          refine ⟨d :: ds, ret, given, e1, e2, hor, ?_⟩
          obtain ⟨L, R, g1, g2, g3⟩ := (c27_validate U _ _ tr htr).1 (by rw [e3, hb])
          obtain ⟨L', g4, g5⟩ := (c27_parse U (d :: ds)).1 ⟨tr, htr⟩
          rw [g1] at g4; cases g4
          exact ⟨L, R, g1, g2, g5, g3⟩
        · cases h3
    · cases h3
  · next e he =>
    split at h2
    · next hne =>
      cases h2
      cases h
      subst hne
      left
      refine ⟨?_, rfl⟩
      rcases fetch_error hw he with ⟨-, g⟩ | ⟨-, g | g | g | ⟨g, -⟩⟩
      · exact g
      all_goals cases g
    · cases h2

/-- C45: What parsing a fetch request raises.  Without a mode, `NotAXMessage`; otherwise `AXError` or a kind of `KeyError`;
    `AssertionError` only for an alias that has a dot or is the name of a field of the protocol. -/
theorem c45_fetch_errors {X : ExtraDigits} {args : Dict Str Str} (hw : Dict.WF args) {e : PyErr}
    (h : FetchRequest.parseExtensionArgs X {} args = .error e) :
    (e = .notAXMessage ∧ (args.get? t!"mode" = none ∨ args.get? t!"mode" = some [])) ∨
    ((∃ s, s ≠ [] ∧ args.get? t!"mode" = some s) ∧ (e = .axError ∨ e = .keyError ∨ e = .invalidNamespace ∨
      e = .assertionError ∧ ∃ a u, typeOf args a = some u ∧ ('.' ∈ a ∨ a ∈ OPENID_PROTOCOL_FIELDS))) := fetch_error hw h

/-- C45: What parsing values raises.  Besides the above, `ValueError` for a count that is no number. -/
theorem c45_values_errors {X : ExtraDigits} {mode : Str} (hm : mode ≠ []) {args : Dict Str Str} (hw : Dict.WF args) {e : PyErr}
    (h : kvParse X mode [] args = .error e) :
    (e = .notAXMessage ∧ (args.get? t!"mode" = none ∨ args.get? t!"mode" = some [])) ∨
    ((∃ s, s ≠ [] ∧ args.get? t!"mode" = some s) ∧ (e = .axError ∨ e = .keyError ∨ e = .invalidNamespace ∨
      (e = .assertionError ∧ ∃ a u, typeOf args a = some u ∧ a ∈ OPENID_PROTOCOL_FIELDS) ∨
      (e = .valueError ∧ ∃ a u s, typeOf args a = some u ∧ args.get? (t!"count." ++ a) = some s ∧ ∀ n, parseInt X s ≠ .ok n))) :=
  kv_error hm hw h

/-- C45: If an argument of the extension is not signed, the signed fetch response raises `AttributeError`. -/
theorem c45_unsigned (X : ExtraDigits) {m : Msg} {signed : List Str}
    (h : Consumer.extensionResponse m signed (.uri t!"http://openid.net/srv/ax/1.0") true = .ok none) :
    FetchResponse.fromSuccessResponse X m signed true = .error .attributeError := by
  change Consumer.extensionResponse m signed (.uri nsUri) true = _ at h
  rw [FetchResponse.fromSuccessResponse, h]; rfl

/-- C45: A store response: what it says, and that it cannot be read back. -/
theorem c45_store_response (succeeded : Bool) (message : Option Str) :
    (succeeded = true ∧ (∃ s, message = some s) ∧ StoreResponse.new succeeded message = .error .axError) ∨
    ¬ (succeeded = true ∧ ∃ s, message = some s) ∧ ∃ r, StoreResponse.new succeeded message = .ok r ∧ r.succeeded = succeeded ∧
      ∀ k v, r.getExtensionArgs.get? k = some v ↔
        k = t!"mode" ∧ v = (if succeeded then t!"store_response_success" else t!"store_response_failure") ∨
        k = t!"error" ∧ v ≠ [] ∧ message = some v := by
  have hne : ¬ (t!"mode" : Str) = t!"error" := by decide
  have hne' : ¬ (t!"error" : Str) = t!"mode" := by decide
  cases succeeded with
  | true =>
    cases message with
    | some s => left; exact ⟨rfl, ⟨s, rfl⟩, rfl⟩
    | none =>
      right
      refine ⟨by simp, _, rfl, by decide, fun k v => ?_⟩
      simp only [StoreResponse.getExtensionArgs, List.append_nil, Dict.get?_cons, Dict.get?_nil, Bool.false_eq_true, if_false,
        Option.isSome_none, Bool.and_false, if_true, reduceCtorEq, and_false, or_false]
      constructor
      · intro h
        split at h
        · next e => cases h; exact ⟨e.symm, rfl⟩
        · cases h
      · rintro ⟨rfl, rfl⟩; rw [if_pos rfl]
  | false =>
    right
    refine ⟨by simp, _, rfl, ?_, fun k v => ?_⟩
    · show decide (t!"store_response_failure" = t!"store_response_success") = false
      decide
    have hs : StoreResponse.succeeded ⟨t!"store_response_failure", message⟩ = false := by
      show decide (t!"store_response_failure" = t!"store_response_success") = false
      decide
    simp only [StoreResponse.getExtensionArgs, Bool.false_and, Bool.false_eq_true, if_false, hs]
    match message with
    | none =>
      simp only [List.append_nil, Dict.get?_cons, Dict.get?_nil, reduceCtorEq, and_false, or_false]
      constructor
      · intro h
        split at h
        · next e => cases h; exact ⟨e.symm, rfl⟩
        · cases h
      · rintro ⟨rfl, rfl⟩; rw [if_pos rfl]
    | some [] =>
      simp only [List.append_nil, Dict.get?_cons, Dict.get?_nil, Option.some.injEq]
      constructor
      · intro h
        split at h
        · next e => cases h; exact .inl ⟨e.symm, rfl⟩
        · cases h
      · rintro (⟨rfl, rfl⟩ | ⟨-, h, rfl⟩)
        · rw [if_pos rfl]
        · exact absurd rfl h
    | some (c :: cs) =>
      simp only [List.cons_append, List.nil_append, Dict.get?_cons, Dict.get?_nil, Option.some.injEq]
      constructor
      · intro h
        split at h
        · next e => cases h; exact .inl ⟨e.symm, rfl⟩
        · split at h
          · next e => cases h; exact .inr ⟨e.symm, by simp, rfl⟩
          · cases h
      · rintro (⟨rfl, rfl⟩ | ⟨rfl, -, rfl⟩)
        · rw [if_pos rfl]
        · rw [if_neg hne, if_pos rfl]

/-- C45: No store response can be made of a message. -/
theorem c45_store_response_unreadable (m : Msg) (signed : List Str) (signedOnly : Bool) (r : Option StoreResponse) :
    StoreResponse.fromSuccessResponse m signed signedOnly ≠ .ok r := by
  rw [StoreResponse.fromSuccessResponse]
  intro h
  obtain ⟨x, -, h⟩ := bind_eq_ok.1 h
  cases h

/-- C45: The update URL of a fetch request is not sent: the arguments are the same whatever it is. -/
theorem c45_update_lost (r : FetchRequest) (u : Option Str) : { r with updateUrl := u }.getExtensionArgs = r.getExtensionArgs := rfl

/-! ## the statements at work -/

def noDigits : ExtraDigits := fun _ => none

/-- two attributes, one with an alias of its own and one without limit; a third is refused -/
def axReq0 : FetchRequest := adds {} [(t!"http://a/mail", .num 1, true, some t!"mail"), (t!"http://a/nick", .unlimited, false, none),
  (t!"http://a/mail", .num 2, false, none), (t!"http://a/x", .num 2, false, some t!"a,b")]

example : Made axReq0 := (c45_history {} (made_empty none) _).1
example : axReq0.requested = [(t!"http://a/mail", ⟨t!"http://a/mail", .num 1, true, some t!"mail"⟩),
    (t!"http://a/nick", ⟨t!"http://a/nick", .unlimited, false, none⟩)] := by decide +kernel

def axArgs0 : Dict Str Str := [(t!"mode", t!"fetch_request"), (t!"type.mail", t!"http://a/mail"), (t!"count.ext0", t!"unlimited"),
  (t!"type.ext0", t!"http://a/nick"), (t!"required", t!"mail"), (t!"if_available", t!"ext0")]

example : axReq0.getExtensionArgs = .ok axArgs0 := by decide +kernel
example : (FetchRequest.parseExtensionArgs noDigits {} axArgs0).toOption.map (·.requested) =
    some [(t!"http://a/mail", ⟨t!"http://a/mail", .num 1, true, some t!"mail"⟩),
      (t!"http://a/nick", ⟨t!"http://a/nick", .unlimited, false, some t!"ext0"⟩)] := by decide +kernel
example : Dict.WF axArgs0 := by decide +kernel
example : ∀ i ∈ axReq0.requested.map (·.2), i.alias ≠ some [] ∧ (i.count = .unlimited ∨ i.count = .num 1) := by decide +kernel

/-- the answer: two values for one, none for the other -/
def axResp0 : FetchResponse :=
  { data := [.add t!"http://a/nick" t!"n1", .add t!"http://a/nick" t!"n2"].foldl valueStep [], request := some axReq0, updateUrl := some t!"http://u/" }

def axRespArgs0 : Dict Str Str := [(t!"mode", t!"fetch_response"), (t!"update_url", t!"http://u/"), (t!"type.ext0", t!"http://a/nick"),
  (t!"count.ext0", t!"2"), (t!"value.ext0.1", t!"n1"), (t!"value.ext0.2", t!"n2"), (t!"type.mail", t!"http://a/mail"), (t!"count.mail", t!"0")]

example : axResp0.getExtensionArgs = .ok axRespArgs0 := by decide +kernel
example : (FetchResponse.parseExtensionArgs noDigits {} axRespArgs0).toOption.map (·.data) =
    some [(t!"http://a/nick", [t!"n1", t!"n2"]), (t!"http://a/mail", [])] := by decide +kernel
example : FetchResponse.getExtensionArgs { axResp0 with data := addValue axResp0.data t!"http://a/other" t!"v" } = .error .keyError := by
  decide +kernel
example : FetchResponse.getExtensionArgs { axResp0 with data := setValues axResp0.data t!"http://a/mail" [t!"v", t!"w"] } = .error .axError := by
  decide +kernel

/-- the request in a message -/
example : (((Msg.new (some OPENID2_NS)).toOption.bind fun m => (m.addExtension nsUri nsAlias axArgs0).toOption).bind fun m =>
    (fromPostArgs libReg m.toPostArgs).toOption.bind fun m =>
      ((FetchRequest.fromOpenIDRequest uni0 noDigits m).toOption.map fun o => o.map fun r => r.requested.map (·.1))) =
    some (some [t!"http://a/mail", t!"http://a/nick"]) := by decide +kernel

/-- the response in a message, all of it signed or not -/
def axSuccess0 (signed : List Str) : Option (Except PyErr (Option FetchResponse)) :=
  ((Msg.new (some OPENID2_NS)).toOption.bind fun m => (m.addExtension nsUri nsAlias axRespArgs0).toOption).bind fun m =>
    (fromPostArgs libReg m.toPostArgs).toOption.map fun m => FetchResponse.fromSuccessResponse noDigits m signed true

example : axSuccess0 (axRespArgs0.map fun p => t!"openid.ax." ++ p.1) =
    some (.ok (some { data := [(t!"http://a/nick", [t!"n1", t!"n2"]), (t!"http://a/mail", [])], updateUrl := some t!"http://u/" })) := by
  decide +kernel
example : axSuccess0 [t!"openid.ax.mode"] = some (.error .attributeError) := by decide +kernel

/-- a store request with given aliases -/
example : ((aliasMap {} [(t!"http://a/nick", t!"nick")]).toOption.bind fun m =>
    (storeArgs (some m) [(t!"http://a/nick", [t!"n"]), (t!"http://a/mail", [])]).toOption) =
    some [(t!"mode", t!"store_request"), (t!"type.nick", t!"http://a/nick"), (t!"count.nick", t!"1"), (t!"value.nick.1", t!"n"),
      (t!"type.ext0", t!"http://a/mail"), (t!"count.ext0", t!"0")] := by decide +kernel

/-! a request with an update URL, inside and outside the realm, and with a realm that is none -/

def axUpdate0 (realm : Str) : Option (Except PyErr (Option (Option Str))) :=
  ((Msg.new (some OPENID2_NS)).toOption.bind fun m => (m.setArg .openid t!"realm" realm).toOption.bind fun m =>
    (m.addExtension nsUri nsAlias (axArgs0 ++ [(t!"update_url", t!"http://rp.example.com/update")])).toOption).bind fun m =>
      (fromPostArgs libReg m.toPostArgs).toOption.map fun m => do
        return (← FetchRequest.fromOpenIDRequest uni0 noDigits m).map (·.updateUrl)

example : axUpdate0 t!"http://*.example.com/" = some (.ok (some (some t!"http://rp.example.com/update"))) := by decide +kernel
example : axUpdate0 t!"http://other.example.com/" = some (.error .axError) := by decide +kernel
/-- C45 (exception): a realm that cannot be parsed raises `AttributeError`. -/
theorem c45_bad_realm : axUpdate0 t!"nonsense" = some (.error .attributeError) := by decide +kernel

/-- C45 (exception): a request whose only alias is empty cannot be read back. -/
theorem c45_empty_alias : ∃ r args, Made r ∧ r.getExtensionArgs = .ok args ∧
    FetchRequest.parseExtensionArgs noDigits {} args = .error .axError :=
  ⟨adds {} [(t!"http://a/", .num 1, true, some [])], [(t!"mode", t!"fetch_request"), (t!"type.", t!"http://a/"), (t!"required", [])],
    (c45_history {} (made_empty none) _).1, by decide +kernel, by decide +kernel⟩

/-- C45 (exception): whether an alias that looks like a generated one can be used depends on the order of the attributes. -/
theorem c45_alias_clash : ∃ a b : Str × Count × Bool × Option Str,
    (adds {} [a, b]).getExtensionArgs.toOption.isSome = true ∧ (adds {} [b, a]).getExtensionArgs = .error .invalidNamespace :=
  ⟨(t!"http://a/", .num 1, true, some t!"ext0"), (t!"http://b/", .num 1, true, none), by decide +kernel, by decide +kernel⟩

/-- C45 (exception): an alias that is a field of the protocol raises `AssertionError`. -/
theorem c45_assertion : FetchRequest.parseExtensionArgs noDigits {} [(t!"mode", t!"fetch_request"), (t!"type.mode", t!"http://a/")] =
    .error .assertionError := by decide +kernel

/-- C45 (exception): a negative count is taken for none. -/
theorem c45_negative_count : kvParse noDigits t!"fetch_response" []
    [(t!"mode", t!"fetch_response"), (t!"type.a", t!"http://a/"), (t!"count.a", t!"-3")] = .ok [(t!"http://a/", [])] := by decide +kernel

end Props
