import Verif.Lemmas.Discover
import Verif.Props.Urinorm
/-! # The URLs discovery asks for -/

namespace Discover
open Py Xml Spec

theorem splitParams_mem (path : Str) (c : Char) (hc : c ∈ (Url.splitParams path).1 ∨ c ∈ (Url.splitParams path).2) : c ∈ path := by
  rw [Url.splitParams] at hc
  split at hc
  · next a last h =>
    have h1 := rcut_eq_some _ _ _ _ h
    split at hc
    · next b params h2 =>
      have h3 := (cut_eq_some_iff ..).1 h2
      rw [h1.1, h3.1]
      simp only [List.mem_append, List.mem_cons] at hc ⊢
      grind
    · simpa using hc
  · rcases hc with hc | hc
    · exact Url.cutOr_fst_subset _ _ _ hc
    · exact Url.cutOr_snd_subset _ _ _ hc

theorem urlsplit_scheme {U : Url.Uni} {scheme rest : Str} {s : Url.Split} (hs : scheme = t!"http" ∨ scheme = t!"https")
    (hc : ∀ c ∈ rest, 0x20 < c.toNat) (h : Url.urlsplit U (scheme ++ t!"://" ++ rest) = .ok s) : s.scheme = scheme := by
  have hall : ∀ c ∈ scheme ++ t!"://" ++ rest, 0x20 < c.toNat := by
    intro c hm
    simp only [List.mem_append] at hm
    rcases hm with (hm | hm) | hm
    · rcases hs with rfl | rfl <;> revert c <;> decide
    · revert c; decide
    · exact hc c hm
  have hclean : ∀ u : Str, (∀ c ∈ u, 0x20 < c.toNat) → Url.cleanUrl u = u := by
    intro u hu
    have h1 : u.dropWhile (fun c => decide (c.toNat ≤ 0x20)) = u := by
      cases u with
      | nil => rfl
      | cons a t =>
        have := hu a (by simp)
        rw [List.dropWhile_cons_of_neg]; simp; omega
    rw [Url.cleanUrl, h1, List.filter_eq_self]
    intro a ha
    have := hu a ha
    have e1 : a ≠ '\t' := by rintro rfl; revert this; decide
    have e2 : a ≠ '\r' := by rintro rfl; revert this; decide
    have e3 : a ≠ '\n' := by rintro rfl; revert this; decide
    simp [e1, e2, e3]
  have hsch : Url.splitScheme (scheme ++ t!"://" ++ rest) = (scheme, t!"//" ++ rest) := by
    have e : scheme ++ t!"://" ++ rest = scheme ++ ':' :: (t!"//" ++ rest) := by simp
    rw [e, Url.splitScheme, cut_append]
    · rcases hs with rfl | rfl <;> rfl
    · rcases hs with rfl | rfl <;> decide
  rw [Url.urlsplit, hclean _ hall] at h
  simp only [hsch] at h
  generalize (if startsWith (t!"//" ++ rest) t!"//" = true then Url.splitNetloc ((t!"//" ++ rest).drop 2)
    else ([], t!"//" ++ rest)) = nl at h
  split at h
  · simp at h
  · split at h
    · simp at h
    · simp only [Except.ok.injEq] at h; rw [← h]

/-- A normalised URL is an http or https URL without a fragment. -/
theorem normalizeURL_http {U : Url.Uni} {url u : Str} (h : normalizeURL U url = .ok u) :
    (startsWith u t!"http://" = true ∨ startsWith u t!"https://" = true) ∧ '#' ∉ u := by
  rw [normalizeURL] at h
  split at h
  · next n hn =>
    obtain ⟨scheme, ui, host, port, path, query, fragment, hr, hs, -, -, -, -, -, -, -, hc⟩ := Props.c26_shape U url n hn
    have hform : ∀ rest : Str, startsWith (scheme ++ t!"://" ++ rest) t!"http://" = true ∨
        startsWith (scheme ++ t!"://" ++ rest) t!"https://" = true := by
      intro rest
      rcases hs with rfl | rfl
      · exact .inl ((startsWith_iff ..).2 ⟨rest, by simp⟩)
      · exact .inr ((startsWith_iff ..).2 ⟨rest, by simp⟩)
    obtain ⟨⟨u', f⟩, hd, h⟩ := bind_eq_ok.1 h
    simp only [pure_eq_ok, Except.ok.injEq] at h
    subst h
    rw [Url.urldefrag] at hd
    have hr' : n = scheme ++ t!"://" ++ (ui ++ host ++ port ++ '/' :: path ++ query ++ fragment) := by
      rw [hr]; simp only [List.append_assoc]
    split at hd
    · obtain ⟨p, hp, hd⟩ := bind_eq_ok.1 hd
      simp only [pure_eq_ok, Except.ok.injEq, Prod.mk.injEq] at hd
      rw [← hd.1]
      rw [Url.urlparse] at hp
      obtain ⟨s, hsp, hp⟩ := bind_eq_ok.1 hp
      have hscheme : s.scheme = scheme := by
        rw [hr'] at hsp
        refine urlsplit_scheme hs ?_ hsp
        intro c hm
        have h1 : c ∈ n := by rw [hr']; exact List.mem_append_right _ hm
        have : ∀ d ∈ Spec.uriChars, 0x20 < d.toNat := by decide +kernel
        exact this c (hc c h1)
      obtain ⟨a1, -, -, a2, a3, -⟩ := Url.urlsplit_spec U n s hsp
      have key : ∀ path params : Str, '#' ∉ path → '#' ∉ params →
          (startsWith (Url.urlunparse ⟨s.scheme, s.netloc, path, params, s.query, []⟩) t!"http://" = true ∨
           startsWith (Url.urlunparse ⟨s.scheme, s.netloc, path, params, s.query, []⟩) t!"https://" = true) ∧
          '#' ∉ Url.urlunparse ⟨s.scheme, s.netloc, path, params, s.query, []⟩ := by
        intro path params h1 h2
        have hne : s.scheme ≠ [] := by rw [hscheme]; rcases hs with rfl | rfl <;> decide
        have hun : s.scheme ∈ Url.usesNetloc := by rw [hscheme]; rcases hs with rfl | rfl <;> decide
        have hhs : '#' ∉ s.scheme := by rw [hscheme]; rcases hs with rfl | rfl <;> decide
        have hnl : '#' ∉ s.netloc := fun hm => by have := a1 _ hm; simp [Url.isDelim] at this
        rw [Url.urlunparse, Url.urlunsplit]
        simp only [ne_eq, hne, hun, not_false_eq_true, and_self, true_or, or_true, ↓reduceIte, not_true_eq_false]
        generalize hp : (if ¬ params = [] then path ++ ';' :: params else path) = pp
        have hpp : '#' ∉ pp := by rw [← hp]; split <;> simp [h1, h2]
        generalize hq : (if ¬ pp = [] ∧ ¬ pp.head? = some '/' then '/' :: pp else pp) = qq
        have hqq : '#' ∉ qq := by rw [← hq]; split <;> simp [hpp]
        have e : s.scheme ++ ':' :: (t!"//" ++ s.netloc ++ qq) = scheme ++ t!"://" ++ (s.netloc ++ qq) := by
          rw [hscheme]; simp
        rw [e]
        have hh : '#' ∉ scheme ++ t!"://" ++ (s.netloc ++ qq) := by
          rw [← hscheme]; simp [hhs, hnl, hqq]
        split
        · refine ⟨by rw [List.append_assoc]; exact hform _, ?_⟩
          rw [List.mem_append]
          rintro (h | h)
          · exact hh h
          · rcases List.mem_cons.1 h with h | h
            · exact absurd h (by decide)
            · exact a3 h
        · exact ⟨hform _, hh⟩
      split at hp
      · next q hq =>
        simp only [pure_eq_ok, Except.ok.injEq] at hp
        subst hp
        split at hq
        · have hm := splitParams_mem s.path '#'
          rw [hq] at hm
          exact key _ _ (fun h => a2 (hm (.inl h))) (fun h => a2 (hm (.inr h)))
        · simp only [Prod.mk.injEq] at hq
          exact key _ _ (by rw [← hq.1]; exact a2) (by rw [← hq.2]; simp)
    · next hno =>
      simp only [Except.ok.injEq, Prod.mk.injEq] at hd
      rw [← hd.1]
      exact ⟨by rw [hr']; exact hform _, hno⟩
  · split at h <;> simp at h

end Discover
