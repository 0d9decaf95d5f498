import Verif.Model.Urinorm
/-! # Realms: what a realm covers

A realm is a URL pattern (OpenID Authentication 2.0, section 9.2).  URLs are compared in normal form. -/

namespace Spec
open Py

/-- the parts of a normalised URL that matter; `path` includes query and fragment -/
structure Location where
  scheme : Str
  host : Str
  port : Option Nat
  path : Str
  deriving DecidableEq, Repr

/-- where a URL points: `none` if it cannot be normalised, or the normal form has no host or no proper port -/
def locate (U : Url.Uni) (url : Str) : Option Location :=
  match Urinorm.urinorm U url with
  | .error _ => none
  | .ok r => match Url.urlsplit U r with
    | .error _ => none
    | .ok s => match Url.hostname U s.netloc, Url.port s.netloc with
      | some h, .ok p => some ⟨s.scheme, h, p, (if s.path = [] then ['/'] else s.path) ++
          (if s.query = [] then [] else '?' :: s.query) ++ (if s.fragment = [] then [] else '#' :: s.fragment)⟩
      | _, _ => none

/-- a realm has no fragment, and a star only in place of whole leading labels -/
def IsRealm (r : Location) : Prop :=
  '#' ∉ r.path ∧ ('*' ∉ r.host ∨ r.host = ['*'] ∨ ∃ d, r.host = '*' :: '.' :: d ∧ '*' ∉ d)

/-- the host itself; with a star, the domain and everything below it -/
def HostCovered (realm host : Str) : Prop :=
  '*' ∉ host ∧ (realm = host ∨ realm = ['*'] ∨
    ∃ d, realm = '*' :: '.' :: d ∧ (host = d ∨ ∃ sub, host = sub ++ '.' :: d))

/-- the path itself, or one that continues it after a slash or with a query, or after an ampersand once the
    realm has a query -/
def PathCovered (realm path : Str) : Prop :=
  realm = path ∨ ∃ rest, path = realm ++ rest ∧
    if '?' ∈ realm then realm.getLast? = some '&' ∨ rest.head? = some '&'
    else realm.getLast? = some '/' ∨ rest.head? = some '/' ∨ rest.head? = some '?'

/-- a realm covers a URL -/
def Covers (realm url : Location) : Prop :=
  realm.scheme = url.scheme ∧ realm.port = url.port ∧ HostCovered realm.host url.host ∧
    PathCovered realm.path url.path

/-- The labels of a host name, one dot at its end ignored. -/
def labels (host : Str) : List Str :=
  if endsWith host t!"." then splitOn '.' host.dropLast else splitOn '.' host

/-- the domain of a realm's host, and whether the realm is a pattern over it -/
def domain (host : Str) : Str × Bool :=
  match host with
  | '*' :: '.' :: d => (d, true)
  | ['*'] => ([], true)
  | h => (h, false)

/-- a domain one can be held responsible for: proper labels, a known top-level domain, something below it, and for
    a pattern over a country's domain more than a short second label -/
def SaneDomain (tlds : List Str) (d : Str) (wild : Bool) : Prop :=
  (∀ l ∈ labels d, l ≠ []) ∧ ∃ front second tld, labels d = front ++ [second, tld] ∧ tld ∈ tlds ∧
    (wild = true → tld.length = 2 → second.length ≤ 3 → front ≠ [])

/-- some URL of the list is a realm without star that covers the return URL -/
def Listed (U : Url.Uni) (allowed : List Str) (returnTo : Str) : Prop :=
  ∃ a ∈ allowed, ∃ L R, locate U a = some L ∧ locate U returnTo = some R ∧ IsRealm L ∧ '*' ∉ L.host ∧ Covers L R

/-- the URL where a realm's return URLs are published: the realm, or with a star the `www` host of the domain.
    A path that starts with two slashes gets two more. -/
def discoveryURL (realm : Str) (L : Location) : Str :=
  match L.host with
  | '*' :: '.' :: d => L.scheme ++ t!"://www." ++ d ++ Urinorm.portText L.port ++
      (if startsWith L.path t!"//" then t!"//" ++ L.path else L.path)
  | _ => realm

end Spec
