import Verif.Props.Associate
/-! # C36: a Diffie-Hellman group that the relying party chooses itself -/

namespace Props
open Py Message Association Cryptutil Store Discover Consumer Spec DH

/-- **C36** Whatever group a relying party's session has, the provider that reads its request makes a session with that
    group, and what it answers gives the relying party's session the secret.  (The constructor of the session class takes a
    group; `begin` always uses the default one.) -/
theorem c36_any_group {WS : Server.World} {WC : Consumer.World} (hsame : SameCrypto WS WC) (sha256 : Bool) (d : DiffieHellman)
    (hok : WC.lib.okParams d.p d.g = true) {m : Msg} {x : Dict Str Str} (hx : Session.getRequest (.dh sha256 d) = .ok x)
    (hm : ∀ k, k = t!"dh_modulus" ∨ k = t!"dh_gen" ∨ k = t!"dh_consumer_public" → m.getArg .openid k = .ok (x.get? k))
    (ES : Server.Env)
    (hpub : WC.lib.okPub d.p d.g (d.g ^ d.priv % d.p) = true ∧ WC.lib.okPub d.p d.g (d.g ^ ES.priv % d.p) = true)
    (hne : ∀ z, WC.lib.sharedBytes d.p z ≠ []) {secret : Bytes} (hl : secret.length = if sha256 then 32 else 20) :
    ∃ pub key answer, d.publicKey = .ok key ∧
      Server.dhSession WS ES sha256 m = .ok (.dh sha256 ⟨d.p, d.g, ES.priv⟩ key) ∧
      Server.Session.answer WS secret (.dh sha256 ⟨d.p, d.g, ES.priv⟩ key) =
        .ok [(t!"dh_server_public", pub), (t!"enc_mac_key", answer)] ∧
      ∀ m' : Msg, m'.getArgReq .openid t!"dh_server_public" = .ok pub → m'.getArgReq .openid t!"enc_mac_key" = .ok answer →
        Session.extractSecret WC (.dh sha256 d) m' = .ok secret := by
  obtain ⟨key, hk, hkn⟩ := base64ToLong_publicKey d
  obtain ⟨pub, hp, hpn⟩ := base64ToLong_publicKey ⟨d.p, d.g, ES.priv⟩
  obtain ⟨bp, hbp, hbpn⟩ := c04_long d.p
  obtain ⟨bg, hbg, hbgn⟩ := c04_long d.g
  have hkd : ∃ b, Base64.decode key = .ok b := by
    rw [base64ToLong, bind_eq_ok] at hkn
    obtain ⟨b, h, -⟩ := hkn
    exact ⟨b, h⟩
  obtain ⟨kb, hkb⟩ := hkd
  have hlib := hsame.lib
  have hnew : ∀ mo ge, mo = bp → ge = bg → DiffieHellman.new WS.lib mo ge ES.priv = .ok ⟨d.p, d.g, ES.priv⟩ := by
    rintro _ _ rfl rfl
    rw [DiffieHellman.new, hbpn, hbgn, hlib]
    simp [hok]
  have hbp0 : bp ≠ [] := by rintro rfl; rw [show base64ToLong [] = .error .valueError by decide] at hbpn; cases hbpn
  have hpar : d.parameters = .ok (bp, bg) := by rw [DiffieHellman.parameters, hbp, hbg]; rfl
  have hsess : Server.dhSession WS ES sha256 m = .ok (.dh sha256 ⟨d.p, d.g, ES.priv⟩ key) := by
    rw [Session.getRequest, hk, DiffieHellman.usingDefaultValues, hpar] at hx
    simp only [ok_bind, pure_eq_ok] at hx
    rw [Server.dhSession, hm _ (.inl rfl), hm _ (.inr (.inl rfl)), hm _ (.inr (.inr rfl))]
    split at hx
    · next he =>
      simp only [Except.ok.injEq] at hx
      subst hx
      simp only [beq_iff_eq, Prod.mk.injEq] at he
      have := hnew defaultModulus defaultGenerator he.1.symm he.2.symm
      simp [Dict.get?, Server.lift, Server.dhFor, Server.truthy, DiffieHellman.fromDefaults, this, Server.dhWith, hkb]
    · simp only [Except.ok.injEq] at hx
      subst hx
      have := hnew bp bg rfl rfl
      have ht : Server.truthy (some bp) = true := by
        cases bp with
        | nil => exact absurd rfl hbp0
        | cons => rfl
      simp [Dict.get?, Server.lift, Server.dhFor, ht, this, Server.dhWith, hkb]
  obtain ⟨enc, h1, h2⟩ := c05_secret_transport WC.lib (WC.hash sha256) d ⟨d.p, d.g, ES.priv⟩ rfl rfl key pub hk hp
    hpub.2 hpub.1 hne secret (by
      intro m
      cases sha256
      · rw [hl]; exact hsame.len1 m
      · rw [hl]; exact hsame.len256 m)
  refine ⟨pub, key, enc, hk, hsess, ?_, fun m' g1 g2 => ?_⟩
  · have hh : (if sha256 then WS.sha256 else WS.sha1) = WC.hash sha256 := by
      rw [Consumer.World.hash, hsame.sha1, hsame.sha256]
    rw [Server.Session.answer, hh, hlib, h1, hp]
    rfl
  · rw [Session.extractSecret, g1, g2]
    have hpn' : base64ToLong pub = .ok _ := hpn
    have hen : ∃ b, fromBase64 enc = .ok b := by
      rw [DiffieHellman.xorSecret] at h1
      simp only [bind_eq_ok, pure_eq_ok, Except.ok.injEq] at h1
      obtain ⟨_, -, _, -, _, -, y, -, rfl⟩ := h1
      exact ⟨_, c04_base64 _⟩
    obtain ⟨eb, heb⟩ := hen
    simp only [ok_bind, hpn', heb, h2]
    exact c04_base64 _

/-- a group of its own: modulus 23, generator 5 -/
def group0 : DiffieHellman := ⟨23, 5, 6⟩

example : ∃ x m, Session.getRequest (.dh true group0) = .ok x ∧ x.get? t!"dh_modulus" = some t!"Fw==" ∧
    pairConsumer0.lib.okParams 23 5 = true ∧ fromPostArgs [] (x.map fun p => (t!"openid." ++ p.1, p.2)) = .ok m ∧
    (∀ k, k = t!"dh_modulus" ∨ k = t!"dh_gen" ∨ k = t!"dh_consumer_public" → m.getArg .openid k = .ok (x.get? k)) ∧
    (pairConsumer0.lib.okPub 23 5 (5 ^ 6 % 23) = true ∧ pairConsumer0.lib.okPub 23 5 (5 ^ senv0.priv % 23) = true) ∧
    (∀ z, pairConsumer0.lib.sharedBytes 23 z ≠ []) ∧ (List.replicate 32 (7 : UInt8)).length = 32 :=
  ⟨[(t!"dh_consumer_public", t!"CA=="), (t!"dh_modulus", t!"Fw=="), (t!"dh_gen", t!"BQ==")], _, by decide +kernel, rfl, rfl, rfl,
    by rintro k (rfl | rfl | rfl) <;> decide +kernel, ⟨rfl, rfl⟩, fun _ => List.cons_ne_nil _ _, rfl⟩

end Props
