import Verif.Lemmas.MessageClash
import Verif.Props.Message
/-! # C68: which messages can be read -/

namespace Props
open Py Message Spec

/-- **C68** Why a query cannot be read: it is of an unknown version, or its extensions cannot go together. -/
theorem c68_unreadable (reg q : Dict Str Str) (hq : Dict.WF q) (e : PyErr) (h : fromPostArgs reg q = .error e) :
    (e = .invalidOpenIDNamespace ∧ ∃ u, arg q t!"ns" = some u ∧ u ∉ versions) ∨
    (∀ u, arg q t!"ns" = some u → u ∈ versions) ∧ Clash reg (versionIn (arg q)) (arg q) e :=
  fromPostArgs_why hq h

/-- **C68** A query can be read exactly when it is of a known version and its extensions can go together (the word `sreg`
    aside, which is an old name for the address of an extension). -/
theorem c68_readable (reg q : Dict Str Str) (hq : Dict.WF q) (hreg : ∀ a u, reg.get? a = some u → u ≠ t!"sreg")
    (hdecl : ∀ a, arg q (t!"ns." ++ a) ≠ some t!"sreg") :
    (∃ m, fromPostArgs reg q = .ok m) ↔
      (∀ u, arg q t!"ns" = some u → u ∈ versions) ∧ ∀ e, ¬ Clash reg (versionIn (arg q)) (arg q) e := by
  constructor
  · rintro ⟨m, hm⟩
    refine ⟨fun u hu => ?_, fun e => fromPostArgs_noclash hq hm hreg hdecl e⟩
    have := (fromPostArgs_has hq hm).1
    rw [show q.get? t!"openid.ns" = some u from hu] at this
    exact this.inv.oid _ this.ns
  · rintro ⟨h1, h2⟩
    cases hm : fromPostArgs reg q with
    | ok m => exact ⟨m, rfl⟩
    | error e =>
      rcases fromPostArgs_why hq hm with ⟨-, u, h3, h4⟩ | ⟨-, h3⟩
      · exact absurd (h1 u h3) h4
      · exact absurd h3 (h2 e)

/-- **C68** The same for the arguments of a reply. -/
theorem c68_reply (reg d : Dict Str Str) (hd : Dict.WF d) (hreg : ∀ a u, reg.get? a = some u → u ≠ t!"sreg")
    (hdecl : ∀ a, d.get? (t!"ns." ++ a) ≠ some t!"sreg") :
    (∃ m, fromOpenIDArgs reg d = .ok m) ↔
      (∀ u, d.get? t!"ns" = some u → u ∈ versions) ∧ ∀ e, ¬ Clash reg (versionIn d.get?) d.get? e := by
  constructor
  · rintro ⟨m, hm⟩
    refine ⟨fun u hu => ?_, fun e => parse_noclash hd hm hreg (fun a w h1 h2 => hdecl a (h2 ▸ h1)) e⟩
    have := (fromOpenIDArgs_has hd hm).1
    rw [hu] at this
    exact this.inv.oid _ this.ns
  · rintro ⟨h1, h2⟩
    cases hm : fromOpenIDArgs reg d with
    | ok m => exact ⟨m, rfl⟩
    | error e =>
      rcases (parse_from (reg := reg) hd).2 e hm with ⟨-, u, h3, h4⟩ | ⟨-, h3⟩
      · exact absurd (h1 u h3) h4
      · exact absurd h3 (h2 e)

/-- **C68** In OpenID 2 nothing is implied: what is not declared does no harm. -/
theorem c68_declared (reg q : Dict Str Str) (hq : Dict.WF q) (hv : arg q t!"ns" = some t!"http://specs.openid.net/auth/2.0")
    (hname : ∀ a u, arg q (t!"ns." ++ a) = some u → a ∉ reserved ∧ '.' ∉ a)
    (hself : ∀ a, arg q (t!"ns." ++ a) ≠ some t!"http://specs.openid.net/auth/2.0")
    (honce : ∀ a b u, arg q (t!"ns." ++ a) = some u → arg q (t!"ns." ++ b) = some u → a = b) :
    ∃ m, fromPostArgs reg q = .ok m := by
  cases hm : fromPostArgs reg q with
  | ok m => exact ⟨m, rfl⟩
  | error e =>
    exfalso
    have himp : ∀ a u, ¬ Implied reg t!"http://specs.openid.net/auth/2.0" (arg q) a u := by
      rintro a u ⟨h, -⟩
      revert h; decide
    rcases fromPostArgs_why hq hm with ⟨-, u, h3, h4⟩ | ⟨-, h3⟩
    · rw [hv] at h3; cases h3
      revert h4; decide
    · rw [versionIn, hv] at h3
      cases h3 with
      | name a u h1 h2 =>
        rcases h2 with h2 | h2
        · exact (hname a u h1).1 h2
        · exact (hname a u h1).2 h2
      | version a h1 => exact hself a h1
      | twice a b u h1 h2 h3 => exact h1 (honce a b u h2 h3)
      | registered a u h1 => exact himp a u h1
      | implied a u h1 => exact himp a u h1

/-- A query with two extensions, one of them not declared. -/
def clash0 (ns : List (Str × Str)) : Dict Str Str :=
  [(t!"openid.mode", t!"id_res"), (t!"openid.sreg.nickname", t!"x"), (t!"openid.ax.mode", t!"y")] ++ ns

example : Dict.WF (clash0 [(t!"openid.ns.ax", t!"http://openid.net/srv/ax/1.0")]) ∧
    (∀ a u, libReg.get? a = some u → u ≠ t!"sreg") ∧
    (fromPostArgs libReg (clash0 [(t!"openid.ns.ax", t!"http://openid.net/srv/ax/1.0")])).toOption.isSome = true := by
  refine ⟨by decide, fun a u h => ?_, by decide⟩
  simp only [libReg, Dict.get?_cons, Dict.get?_nil] at h
  split at h
  · cases h; decide
  · cases h

/-- An extension that is not declared, and declared under another name. -/
theorem c68_implied_raises :
    fromPostArgs libReg (clash0 [(t!"openid.ns.x", t!"http://openid.net/extensions/sreg/1.1")]) = .error .invalidNamespace ∧
    Clash libReg (versionIn (arg (clash0 [(t!"openid.ns.x", t!"http://openid.net/extensions/sreg/1.1")])))
      (arg (clash0 [(t!"openid.ns.x", t!"http://openid.net/extensions/sreg/1.1")])) .invalidNamespace :=
  ⟨by decide, .implied t!"sreg" t!"http://openid.net/extensions/sreg/1.1"
    ⟨by decide, by decide, by decide, ⟨t!"nickname", t!"x", by decide⟩, by decide, by decide⟩
    (.inr (.inl ⟨t!"x", by decide, .inl (by decide)⟩))⟩

theorem c68_twice_raises :
    fromPostArgs libReg (clash0 [(t!"openid.ns.a", t!"u"), (t!"openid.ns.b", t!"u")]) = .error .invalidNamespace := by
  decide

theorem c68_self_raises :
    fromPostArgs libReg (clash0 [(t!"openid.ns.a", t!"http://openid.net/signon/1.0")]) = .error .invalidNamespace := by
  decide

theorem c68_name_raises :
    fromPostArgs libReg (clash0 [(t!"openid.ns.mode", t!"u")]) = .error .assertionError ∧
    fromPostArgs libReg (clash0 [(t!"openid.ns.a.b", t!"u")]) = .error .assertionError := by
  decide

end Props
