import Verif.Spec.ServerAssociate
import Verif.Lemmas.ServerAnswer
/-! # Lemmas on association requests -/

namespace Server
open Py Message Association Cryptutil DH Store Spec

theorem permits_iff {n : Negotiator} {a s : Str} : n.isAllowed a s = true ↔ Permits n a s := by
  unfold Negotiator.isAllowed Permits sessionTypeOk getSessionTypes
  simp only [Bool.and_eq_true, List.contains_iff_mem]
  refine and_congr Iff.rfl ?_
  split
  · next h => simp [h]
  · split
    · next h => simp [h]
    · next h1 h2 => simp [h1, h2]

theorem answer_secretFor {W : World} {secret : Bytes} {s : Session} {kvs : Dict Str Str}
    (h : s.answer W secret = .ok kvs) :
    SecretFor W s secret (kvs.map fun p => (p.1, some p.2)) ∧
    (Dict.keys kvs = [t!"mac_key"] ∨ Dict.keys kvs = [t!"dh_server_public", t!"enc_mac_key"]) := by
  cases s with
  | plain =>
    simp only [Session.answer, Except.ok.injEq] at h
    subst h
    exact ⟨rfl, .inl rfl⟩
  | dh b d k =>
    simp only [Session.answer] at h
    obtain ⟨mac, h1, h⟩ := bind_eq_ok.1 h
    obtain ⟨pub, h2, h⟩ := bind_eq_ok.1 h
    simp only [pure_eq_ok, Except.ok.injEq] at h
    subst h
    exact ⟨⟨pub, mac, lift_ok.1 h2, lift_ok.1 h1, rfl⟩, .inr rfl⟩

end Server
