import Verif.Lemmas.FileNames
/-! # C22: the file store's names

`H` is SHA-1, an arbitrary function with results of 20 bytes.  "No collision" is stated for the texts at hand
only: it is the hypothesis that their hashes differ if they do. -/

namespace Props
open Py FileStore

/-- **C22** different keys, different files: two (server, handle) pairs with the same association file name
    are the same pair, unless the hash function collides on them. -/
theorem c22_injective (H : Sha1) (hl : ∀ x, (H x).length = 20) (u h u' h' n : Str)
    (hn : assocName H u h = .ok n) (hn' : assocName H u' h' = .ok n)
    (hu : H (Utf8.encode u) = H (Utf8.encode u') → u = u')
    (hh : H (Utf8.encode h) = H (Utf8.encode h') → h = h') : u = u' ∧ h = h' := by
  obtain ⟨p, r, -, e⟩ := assocName_ok hn
  obtain ⟨p', r', -, e'⟩ := assocName_ok hn'
  rw [e] at e'
  obtain ⟨h1, h2⟩ := last_sep (handleHash_no H h).1 (handleHash_no H h').1 e'
  obtain ⟨-, h3⟩ := last_sep (safe64_no H u dash_no) (safe64_no H u' dash_no) h1
  exact ⟨hu (safe64_inj H u u' (hl _) (hl _) h3), handleHash_inj H h h' hl hh h2⟩

/-- **C22** every text with `://` in it has a file name, any other text is refused with `ValueError`. -/
theorem c22_total (H : Sha1) (u h : Str) :
    (∃ n, assocName H u h = .ok n) ↔ ∃ p r, u = p ++ t!"://" ++ r := by
  constructor
  · rintro ⟨n, hn⟩
    obtain ⟨p, r, hc, -⟩ := assocName_ok hn
    exact ⟨p, r, cutStr_eq hc⟩
  · rintro ⟨p, r, rfl⟩
    have : ∃ q, cutStr t!"://" (p ++ t!"://" ++ r) = some q := by
      induction p with
      | nil => exact ⟨_, rfl⟩
      | cons c p ih =>
        rw [List.cons_append, List.cons_append, cutStr]
        split
        · exact ⟨_, rfl⟩
        · obtain ⟨q, hq⟩ := ih
          exact ⟨_, by rw [hq]; rfl⟩
    obtain ⟨⟨p', r'⟩, hq⟩ := this
    exact ⟨_, assocName_some h hq⟩

/-- **C22** lookup without handle.  Among the files of servers whose scheme has no dash in it, those that
    start with the prefix of server `u` are exactly those of `u`. -/
theorem c22_prefix (H : Sha1) (hl : ∀ x, (H x).length = 20) (p r p' r' h' n0 n' : Str)
    (hd : '-' ∉ p ∧ '/' ∉ p ∧ ':' ∉ p) (hd' : '-' ∉ p' ∧ ':' ∉ p')
    (hn : assocName H (p ++ t!"://" ++ r) [] = .ok n0)
    (hn' : assocName H (p' ++ t!"://" ++ r') h' = .ok n')
    (hu : H (Utf8.encode (p ++ t!"://" ++ r)) = H (Utf8.encode (p' ++ t!"://" ++ r')) →
      p ++ t!"://" ++ r = p' ++ t!"://" ++ r') :
    startsWith n' (basename n0) = true ↔ p ++ t!"://" ++ r = p' ++ t!"://" ++ r' := by
  rw [assocName_some _ (cutStr_of hd.2.2)] at hn
  rw [assocName_some _ (cutStr_of hd'.2)] at hn'
  simp only [Except.ok.injEq] at hn hn'
  subst hn; subst hn'
  have hb : basename (p ++ '-' :: filenameEscape (beforeSlash r) ++ '-' :: safe64 H (p ++ t!"://" ++ r)
      ++ '-' :: handleHash H []) = p ++ '-' :: filenameEscape (beforeSlash r)
        ++ '-' :: safe64 H (p ++ t!"://" ++ r) ++ ['-'] := by
    rw [basename_self]
    · simp [handleHash]
    · simp [hd.2.1, (filenameEscape_no (beforeSlash r)).2, safe64_no H _ slash_no, handleHash]
  rw [hb, startsWith, List.isPrefixOf_iff_prefix]
  constructor
  · rintro ⟨t, ht⟩
    simp only [List.append_assoc, List.cons_append, List.nil_append] at ht
    obtain ⟨e1, e2⟩ := first_sep hd.1 hd'.1 ht
    obtain ⟨e3, e4⟩ := first_sep (filenameEscape_no _).1 (filenameEscape_no _).1 e2
    have key : ∀ u u', safe64 H u ++ '-' :: t = safe64 H u' ++ '-' :: handleHash H h' →
        H (Utf8.encode u) = H (Utf8.encode u') := by
      intro u u' hx
      obtain ⟨e5, -⟩ := first_sep (safe64_no H u dash_no) (safe64_no H u' dash_no) hx
      exact safe64_inj H u u' (hl _) (hl _) e5
    have := key (p ++ t!"://" ++ r) (p' ++ t!"://" ++ r') (by simpa using e4)
    exact hu this
  · intro he
    have h1 : cutStr t!"://" (p ++ t!"://" ++ r) = some (p, r) := cutStr_of hd.2.2
    rw [he, cutStr_of hd'.2] at h1
    simp only [Option.some.injEq, Prod.mk.injEq] at h1
    obtain ⟨rfl, rfl⟩ := h1
    exact ⟨handleHash H h', by simp⟩

/-- **C22** the condition on schemes is needed: whatever the hash function, there is a text that is a URL
    as far as the store is concerned, another server's, and whose files a lookup for `http://op/` takes. -/
theorem c22_prefix_confused (H : Sha1) : ∃ u' : Str, u' ≠ t!"http://op/" ∧
    ∃ n0, assocName H t!"http://op/" [] = .ok n0 ∧
      ∀ h', ∃ n', assocName H u' h' = .ok n' ∧ startsWith n' (basename n0) = true := by
  refine ⟨t!"http-op-" ++ safe64 H t!"http://op/" ++ t!"-x" ++ t!"://" ++ t!"evil", ?_, ?_⟩
  · intro h
    rw [List.append_assoc, List.append_assoc, List.append_assoc] at h
    simp at h
  · refine ⟨_, assocName_some (p := t!"http") (r := t!"op/") [] (by decide), fun h' => ?_⟩
    refine ⟨_, assocName_some h' (cutStr_of ?_), ?_⟩
    · simp [safe64_no H _ colon_no]
    · rw [basename_self]
      · rw [startsWith, List.isPrefixOf_iff_prefix]
        refine ⟨t!"x-" ++ filenameEscape (beforeSlash t!"evil") ++ '-' :: safe64 H
          (t!"http-op-" ++ safe64 H t!"http://op/" ++ t!"-x" ++ t!"://" ++ t!"evil") ++
          '-' :: handleHash H h', ?_⟩
        have h1 : filenameEscape (beforeSlash t!"op/") = t!"op" := by decide
        rw [h1]
        simp [handleHash]
      · simp [(filenameEscape_no (beforeSlash t!"op/")).2, safe64_no H _ slash_no, handleHash]

/-- **C22** nonces too: two nonces with the same file name are the same nonce, unless the hash function
    collides on their texts. -/
theorem c22_nonce_injective (H : Sha1) (hl : ∀ x, (H x).length = 20) (u s u' s' n : Str) (t t' : Int)
    (hn : nonceName H u t s = .ok n) (hn' : nonceName H u' t' s' = .ok n)
    (hu : H (Utf8.encode u) = H (Utf8.encode u') → u = u')
    (hs : H (Utf8.encode s) = H (Utf8.encode s') → s = s') : u = u' ∧ t = t' ∧ s = s' := by
  obtain ⟨p, r, hp, e⟩ := nonceName_ok hn
  obtain ⟨p', r', hp', e'⟩ := nonceName_ok hn'
  rw [e] at e'
  obtain ⟨h1, h2⟩ := last_sep (safe64_no H s dash_no) (safe64_no H s' dash_no) e'
  obtain ⟨h3, h4⟩ := last_sep (safe64_no H u dash_no) (safe64_no H u' dash_no) h1
  have hu' := hu (safe64_inj H u u' (hl _) (hl _) h4)
  subst hu'
  rw [hp] at hp'
  simp only [Except.ok.injEq, Prod.mk.injEq] at hp'
  obtain ⟨rfl, rfl⟩ := hp'
  rw [List.append_assoc, List.append_assoc] at h3
  exact ⟨rfl, stamp_inj (List.append_cancel_right h3), hs (safe64_inj H s s' (hl _) (hl _) h2)⟩

/-- **C22** the file is in the store's directory when the scheme has no slash in it. -/
theorem c22_inside (H : Sha1) (dir p r h n : Str) (hp : '/' ∉ p ∧ ':' ∉ p)
    (hn : assocName H (p ++ t!"://" ++ r) h = .ok n) : '/' ∉ n ∧ joinPath dir n = dir ++ '/' :: n := by
  rw [assocName_some _ (cutStr_of hp.2)] at hn
  simp only [Except.ok.injEq] at hn
  have h1 : '/' ∉ n := by
    rw [← hn]
    have h2 := (handleHash_no H h).2
    simp [hp.1, (filenameEscape_no (beforeSlash r)).2, safe64_no H _ slash_no, h2]
  refine ⟨h1, ?_⟩
  rw [joinPath, if_neg]
  intro h2
  rw [startsWith, List.isPrefixOf_iff_prefix] at h2
  obtain ⟨t, ht⟩ := h2
  exact h1 (ht ▸ by simp)

/-- **C22** that condition is needed too: a "URL" whose scheme is an absolute path puts the file anywhere. -/
theorem c22_outside (H : Sha1) (dir h : Str) : ∃ n, assocName H t!"/etc/x://h" h = .ok n ∧
    joinPath dir n = n ∧ startsWith n t!"/etc/x-h-" = true := by
  refine ⟨_, assocName_some (p := t!"/etc/x") (r := t!"h") h (by decide), ?_, ?_⟩
  · rw [joinPath, if_pos]
    rw [startsWith, List.isPrefixOf_iff_prefix]
    exact ⟨_, rfl⟩
  · rw [startsWith, List.isPrefixOf_iff_prefix]
    have h1 : filenameEscape (beforeSlash t!"h") = t!"h" := by decide
    rw [h1]
    exact ⟨safe64 H t!"/etc/x://h" ++ '-' :: handleHash H h, by simp⟩

/-- a hash function for the examples: 20 bytes, different for short texts that differ -/
def hash0 : Sha1 := fun b => (b ++ List.replicate 20 0).take 20

example : (∀ x, (hash0 x).length = 20) ∧
    assocName hash0 t!"https://a-b/" t!"{H}" = .ok t!"https-a_2Db-aHR0cHM6Ly9hLWIvAAAAAAAAAAA-e0h9AAAAAAAAAAAAAAAAAAAAAAA" := by
  refine ⟨fun x => ?_, by decide +kernel⟩
  simp [hash0]

example : nonceName hash0 t!"http://op/" 1000000000 t!"s" =
    .ok t!"3b9aca00-http-op-aHR0cDovL29wLwAAAAAAAAAAAAA-cwAAAAAAAAAAAAAAAAAAAAAAAAA" := by decide +kernel

end Props
