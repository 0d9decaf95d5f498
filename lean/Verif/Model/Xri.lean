import Verif.Base.Percent
import Verif.Model.Urinorm
/-! # Model of openid/yadis/xri.py (text arguments only) -/

namespace Xri
open Py

/-- openid/yadis/xri.py:16 `XRI_AUTHORITIES` -/
def authorities : List Char := ['!', '=', '@', '+', '$', '(']

/-- openid/yadis/xri.py:19-27 `identifierScheme`: is it an XRI? -/
def isXRI (identifier : Str) : Bool :=
  startsWith identifier t!"xri://" || match identifier with
    | c :: _ => authorities.contains c
    | [] => false

/-- openid/yadis/xri.py:125-137 `XRI` -/
def XRI (x : Str) : Str := if startsWith x t!"xri://" then x else t!"xri://" ++ x

/-- openid/yadis/xri.py:40-47 `_escape_xref` on the text between the parentheses -/
def escapeXref (s : Str) : Str :=
  replaceChar '#' t!"%23" (replaceChar '?' t!"%3F" (replaceChar '/' t!"%2F" s))

theorem cut_shorter {c : Char} {s a b : Str} (h : cut c s = some (a, b)) : b.length < s.length := by
  induction s generalizing a with
  | nil => simp [cut] at h
  | cons x xs ih =>
    rw [cut] at h
    split at h
    · simp at h; simp [h.2]
    · simp only [Option.map_eq_some_iff, Prod.mk.injEq] at h
      obtain ⟨⟨p, q⟩, h1, -, h2⟩ := h
      simp only at h2
      subst h2
      have := ih h1
      simp; omega

/-- openid/yadis/xri.py:37, 53: every `(...)` on one line, from left to right, is escaped -/
def escapeXrefs : Str → Str
  | [] => []
  | c :: rest =>
    if c = '(' then
      match h : cut ')' rest with
      | some (inner, after) =>
        if inner.contains '\n' then c :: escapeXrefs rest
        else
          have := cut_shorter h
          '(' :: escapeXref inner ++ ')' :: escapeXrefs after
      | none => c :: escapeXrefs rest
    else c :: escapeXrefs rest
termination_by s => s.length
decreasing_by all_goals simp_all <;> omega

/-- openid/yadis/xri.py:50-54 `escapeForIRI` -/
def escapeForIRI (x : Str) : Str := escapeXrefs (replaceChar '%' t!"%25" x)

/-- openid/yadis/xri.py:30-34 `toIRINormal` -/
def toIRINormal (x : Str) : Str := escapeForIRI (XRI x)

/-- openid/urinorm.py:47-52 `GEN_DELIMS + SUB_DELIMS + PERCENT_ENCODING_CHARACTER` -/
def iriSafe : Str := t!":/?#[]@" ++ Urinorm.subDelims ++ t!"%"

/-- openid/yadis/xri.py:62-79 `iriToURI` -/
def iriToURI (iri : Str) : Str := Percent.quote iriSafe iri

/-- openid/yadis/xri.py:57-59 `toURINormal` -/
def toURINormal (x : Str) : Str := iriToURI (toIRINormal x)

/-- `s[:s.rindex('!')]`, openid/yadis/xri.py:88-89 and openid/yadis/etxrd.py:182 -/
def parentOf (s : Str) : Except PyErr Str :=
  match rcut '!' s with
  | some (p, _) => .ok p
  | none => .error .valueError

/-- openid/yadis/xri.py:82-90 `providerIsAuthoritative` -/
def providerIsAuthoritative (provider canonicalID : Str) : Except PyErr Bool := do
  let p ← parentOf canonicalID
  return p = provider

/-- openid/yadis/xri.py:93-122 `rootAuthority` -/
def rootAuthority (x : Str) : Except PyErr Str :=
  let x := if startsWith x t!"xri://" then x.drop 6 else x
  let authority := (splitOn '/' x).headD []
  match authority with
  | [] => .error .indexError
  | c :: _ =>
    if c = '(' then
      match cut ')' authority with
      | some (p, _) => .ok (XRI (p ++ t!")"))
      | none => .error .valueError
    else if authorities.contains c then .ok (XRI [c])
    else .ok (XRI (((splitOn '!' authority).flatMap (splitOn '*')).headD []))

end Xri
