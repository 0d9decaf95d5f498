import Verif.Model.DH
import Verif.Props.Cryptutil
/-! # Properties of Diffie-Hellman secret transport: C05 -/

namespace Props
open Py Cryptutil DH

theorem strxor_self_inverse (x k : Bytes) (h : x.length = k.length) :
    ∃ y, strxor x k = .ok y ∧ y.length = x.length ∧ strxor y k = .ok x := by
  refine ⟨List.zipWith (fun a b => a ^^^ b) x k, by simp [strxor, h], by simp [h], ?_⟩
  simp [strxor, h]
  induction x generalizing k with
  | nil => cases k <;> simp_all
  | cons a r ih =>
    cases k with
    | nil => simp at h
    | cons b s =>
      simp at h
      simp [ih s h, UInt8.xor_assoc]

/-- both parties compute the same group element -/
theorem dh_commutes (p g x y : Nat) : (g ^ y % p) ^ x % p = (g ^ x % p) ^ y % p := by
  rw [← Nat.pow_mod, ← Nat.pow_mod, ← Nat.pow_mul, ← Nat.pow_mul, Nat.mul_comm]

theorem base64ToLong_publicKey (d : DiffieHellman) :
    ∃ s, d.publicKey = .ok s ∧ base64ToLong s = .ok d.publicNumber := c04_long _

/-- the shared bytes each side obtains from the other's public key -/
theorem shared_eq (L : Lib) (c s : DiffieHellman) (hp : c.p = s.p) (hg : c.g = s.g) (cpub spub : Str)
    (hc : c.publicKey = .ok cpub) (hs : s.publicKey = .ok spub)
    (okc : L.okPub c.p c.g s.publicNumber = true) (oks : L.okPub s.p s.g c.publicNumber = true) :
    c.getSharedSecret L spub = s.getSharedSecret L cpub ∧
    c.getSharedSecret L spub = .ok (L.sharedBytes c.p (s.publicNumber ^ c.priv % c.p)) := by
  obtain ⟨cp, hc', hcn⟩ := base64ToLong_publicKey c
  obtain ⟨sp, hs', hsn⟩ := base64ToLong_publicKey s
  rw [hc] at hc'; rw [hs] at hs'
  simp only [Except.ok.injEq] at hc' hs'
  subst hc'; subst hs'
  have : s.publicNumber ^ c.priv % c.p = c.publicNumber ^ s.priv % s.p := by
    simp only [DiffieHellman.publicNumber, hp, hg]; exact dh_commutes ..
  simp only [DiffieHellman.getSharedSecret, hcn, hsn, ok_bind, okc, oks, if_true, pure_eq_ok, this]
  rw [hp]; exact ⟨rfl, trivial⟩

/-- C05: for every modulus, generator, pair of private keys, hash function and secret of the hash's
    length, the secret the server encrypts for the consumer's public key is exactly what the
    consumer recovers with the server's public key.  (The library must accept the two public keys
    and not return an empty shared value.) -/
theorem c05_secret_transport (L : Lib) (hash : Bytes → Bytes) (c s : DiffieHellman)
    (hp : c.p = s.p) (hg : c.g = s.g) (cpub spub : Str)
    (hc : c.publicKey = .ok cpub) (hs : s.publicKey = .ok spub)
    (okc : L.okPub c.p c.g s.publicNumber = true) (oks : L.okPub s.p s.g c.publicNumber = true)
    (hne : ∀ z, L.sharedBytes c.p z ≠ [])
    (secret : Bytes) (hlen : ∀ m, (hash m).length = secret.length) :
    ∃ enc, s.xorSecret L cpub (toBase64 secret) hash = .ok enc ∧
      c.xorSecret L spub enc hash = .ok (toBase64 secret) := by
  obtain ⟨e1, e2⟩ := shared_eq L c s hp hg cpub spub hc hs okc oks
  obtain ⟨k, hk, _⟩ := c03_fix_btwoc _ (hne (s.publicNumber ^ c.priv % c.p))
  obtain ⟨y, hy, hyl, hyx⟩ := strxor_self_inverse secret (hash k) (hlen k).symm
  have hdec : ∀ b : Bytes, Base64.decode (toBase64 b) = .ok b := c04_base64
  refine ⟨toBase64 y, ?_, ?_⟩
  · simp [DiffieHellman.xorSecret, ← e1, e2, hk, hdec, hy]
  · simp [DiffieHellman.xorSecret, e2, hk, hdec, hyx]

/-- C05: a secret whose length differs from the hash's is refused with ValueError, never
    truncated. -/
theorem c05_wrong_length (L : Lib) (hash : Bytes → Bytes) (d : DiffieHellman) (pub : Str)
    (secret : Bytes) (hlen : ∀ m, (hash m).length ≠ secret.length) (r : Str) :
    d.xorSecret L pub (toBase64 secret) hash ≠ .ok r := by
  intro h
  simp only [DiffieHellman.xorSecret, bind_eq_ok] at h
  obtain ⟨sh, _, k, _, b, hb, x, hx, _⟩ := h
  have : Base64.decode (toBase64 secret) = .ok secret := c04_base64 secret
  rw [this] at hb
  simp only [Except.ok.injEq] at hb
  subst hb
  simp only [strxor] at hx
  split at hx
  · simp at hx
  · next hn => simp at hn; exact hlen k hn.symm

/-- C05, what the wire carries: the hashed bytes always denote the shared group element and are never
    negative as two's complement; they are its `btwoc` form, as the OpenID specification demands, exactly
    when the library did not pad the element with a zero byte it did not need. -/
theorem c05_hashes_btwoc (L : Lib) (d : DiffieHellman) (pub : Str) (z : Bytes) (hd : 0 < d.p)
    (hL : ∀ p n, n < p → Spec.bigEndian (L.sharedBytes p n) = n ∧ L.sharedBytes p n ≠ [])
    (h : d.getSharedSecret L pub = .ok z) :
    ∃ y k, base64ToLong pub = .ok y ∧ fixBtwoc z = .ok k ∧ Spec.bigEndian k = y ^ d.priv % d.p ∧
      (∀ b r, k = b :: r → b.toNat < 128) ∧
      (Spec.IsBtwoc (y ^ d.priv % d.p) k ↔ ¬ ∃ b r, z = 0 :: b :: r ∧ b.toNat < 128) := by
  simp only [DiffieHellman.getSharedSecret, bind_eq_ok] at h
  obtain ⟨y, hy, h⟩ := h
  split at h
  · simp only [pure_eq_ok, Except.ok.injEq] at h
    subst h
    obtain ⟨h1, h2⟩ := hL d.p (y ^ d.priv % d.p) (Nat.mod_lt _ hd)
    obtain ⟨k, hk, hv, hx⟩ := c03_fix_btwoc _ h2
    have hpos : ∀ b r, k = b :: r → b.toNat < 128 := by
      obtain ⟨b', r', e, hb'⟩ := hx
      intro b r e'
      rw [e] at e'
      simp only [List.cons.injEq] at e'
      rw [← e'.1]; exact hb'
    refine ⟨y, k, hy, hk, hv.trans h1, hpos, ?_⟩
    generalize L.sharedBytes d.p (y ^ d.priv % d.p) = z at *
    cases z with
    | nil => contradiction
    | cons a t =>
      simp only [fixBtwoc] at hk
      split at hk
      · next hb =>
        simp only [Except.ok.injEq] at hk
        subst hk
        constructor
        · rintro - ⟨b, r, e, hb'⟩
          simp only [List.cons.injEq] at e
          rw [e.1] at hb
          revert hb; decide
        · intro _
          refine ⟨hv.trans h1, hx, ?_⟩
          intro w r hw
          simp only [List.cons.injEq, true_and] at hw
          rw [← hw.1]; omega
      · simp only [Except.ok.injEq] at hk
        subst hk
        constructor
        · rintro ⟨-, -, hmin⟩ ⟨b, r, e, hb'⟩
          have := hmin b r e
          omega
        · intro hno
          refine ⟨hv.trans h1, hx, ?_⟩
          intro w r hw
          by_cases hlt : w.toNat < 128
          · exact absurd ⟨w, r, hw, hlt⟩ hno
          · omega
  · simp at h

/-- such a library: the shortest bytes -/
example : ∃ L : Lib, (∀ p n, n < p → Spec.bigEndian (L.sharedBytes p n) = n ∧ L.sharedBytes p n ≠ []) ∧
    (⟨23, 5, 6⟩ : DiffieHellman).getSharedSecret L t!"Ew==" = .ok [2] := by
  refine ⟨⟨fun _ _ => true, fun _ _ _ => true,
    fun _ n => match intToBytes (n : Int) with | .ok b => b | .error _ => []⟩, ?_, by decide⟩
  intro p n _
  obtain ⟨b, hb, hv, ⟨x, r, e, -⟩, -⟩ := c03_int_to_bytes_canonical n
  simp only [hb]
  exact ⟨hv, by simp [e]⟩

/-- A library that pads the shared element to the length of the modulus (as OpenSSL-backed
    `exchange` does) breaks that: `fix_btwoc` does not remove the padding.  Modulus 257 needs two
    bytes; the shared element 4 is then hashed as `00 04` instead of `04`. -/
theorem c05_padding_not_btwoc :
    ∃ (L : Lib) (d : DiffieHellman) (pub : Str) (y : Nat) (z k : Bytes),
      (∀ p n, n < p → p < 65536 → Spec.bigEndian (L.sharedBytes p n) = n) ∧
      base64ToLong pub = .ok y ∧ d.getSharedSecret L pub = .ok z ∧ fixBtwoc z = .ok k ∧
      Spec.bigEndian k = y ^ d.priv % d.p ∧ ¬ Spec.IsBtwoc (y ^ d.priv % d.p) k := by
  refine ⟨⟨fun _ _ => true, fun _ _ _ => true,
      fun _ n => [UInt8.ofNat (n / 256), UInt8.ofNat (n % 256)]⟩, ⟨257, 2, 1⟩, t!"BA==", 4,
      [0, 4], [0, 4], ?_, by decide, by decide, by decide, by decide, ?_⟩
  · intro p n hn hp
    simp [Spec.bigEndian]
    omega
  · rintro ⟨_, _, h⟩
    have := h 4 [] rfl
    revert this; decide

/-- a concrete run: p = 23, g = 5, private keys 6 and 15, one-byte "hash" -/
def toyLib : Lib := ⟨fun _ _ => true, fun _ _ _ => true, fun _ n => [UInt8.ofNat n]⟩

example : (⟨23, 5, 15⟩ : DiffieHellman).xorSecret toyLib t!"CA==" (toBase64 [200])
    (fun m => [m.foldl (· + ·) 17]) = .ok (toBase64 [219]) := by decide
example : (⟨23, 5, 6⟩ : DiffieHellman).publicKey = .ok t!"CA==" := by decide
example : (⟨23, 5, 15⟩ : DiffieHellman).publicKey = .ok t!"Ew==" := by decide
example : (⟨23, 5, 6⟩ : DiffieHellman).xorSecret toyLib t!"Ew==" (toBase64 [219])
    (fun m => [m.foldl (· + ·) 17]) = .ok (toBase64 [200]) := by decide

/-- C05: a peer key the library refuses, or one that is not base64 of a number, is a ValueError: no secret is
    derived from it. -/
theorem c05_refuses_key (L : Lib) (hash : Bytes → Bytes) (d : DiffieHellman) (pub enc : Str)
    (h : ∀ y, base64ToLong pub = .ok y → L.okPub d.p d.g y = false) :
    d.xorSecret L pub enc hash = .error .valueError := by
  have : d.getSharedSecret L pub = .error .valueError := by
    rw [DiffieHellman.getSharedSecret]
    cases hb : base64ToLong pub with
    | error e =>
      rw [base64ToLong] at hb
      rcases bind_eq_error.1 hb with h' | ⟨bs, -, h'⟩
      · rw [Base64.decode_error _ _ h']; rfl
      · rw [bytesToInt.eq_def] at h'
        split at h' <;> simp at h'
        subst h'; rfl
    | ok y => simp [h y hb]
  rw [DiffieHellman.xorSecret, this]; rfl

example : (⟨23, 5, 6⟩ : DiffieHellman).xorSecret ⟨fun _ _ => true, fun p _ y => 1 < y && y < p - 1, fun _ z => [UInt8.ofNat z]⟩
    t!"AQ==" t!"AA==" (fun _ => [1]) = .error .valueError := by decide

end Props
