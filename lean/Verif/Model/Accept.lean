import Verif.Base.Py
/-! # Model of openid/yadis/accept.py

Texts are texts (`string_to_text` decodes binary values).  The numbers are floating-point numbers, of which a theorem
may suppose that they are ordered: `nan` is not modelled. -/

namespace Accept
open Py

/-- openid/yadis/accept.py: what is used of floating-point numbers: `<`, `0`, `1`, `1 - q`, `float(text)` (`none` for the
    `ValueError`), `'%0.1f' % q` -/
structure Floats (Q : Type) where
  lt : Q → Q → Bool
  zero : Q
  one : Q
  minus : Q → Q
  parse : Str → Option Q
  fmt : Q → Str

variable {Q : Type} [DecidableEq Q] (F : Floats Q)

/-- openid/yadis/accept.py:111, 114, 116 `max(a, b)` -/
def Floats.max (a b : Q) : Q := if F.lt a b then b else a

/-- openid/yadis/accept.py:17-32: one element, with its factor as a text; the factor is left out for a text alone -/
def element (e : Str × Option Q) : Except PyErr (Str × Str) :=
  match e.2 with
  | none => .ok (t!"1.0", e.1)
  | some q => if F.lt F.one q || !F.lt F.zero q then .error .valueError else .ok (F.fmt q, e.1)

/-- openid/yadis/accept.py:34: comparison of pairs of texts -/
def pairLe (a b : Str × Str) : Bool := if a.1 = b.1 then strLe a.2 b.2 else strLe a.1 b.1

/-- openid/yadis/accept.py:36-40: the text of an element -/
def chunkText (p : Str × Str) : Str := if p.1 = t!"1.0" then p.2 else p.2 ++ t!"; q=" ++ p.1

/-- openid/yadis/accept.py:11-42 `generateAcceptHeader` -/
def generateAcceptHeader (elements : List (Str × Option Q)) : Except PyErr Str := do
  let parts ← elements.mapM (element F)
  return join t!", " ((sortBy pairLe parts).map chunkText)

/-- openid/yadis/accept.py:66-77: the factor of an element, from its parameters -/
def factor : List Str → Q
  | [] => F.one
  | ext :: rest =>
    match cut '=' ext with
    | some (k, v) =>
      if k = t!"q" then
        match F.parse v with
        | some q => q
        | none => factor rest
      else factor rest
    | none => factor rest

/-- openid/yadis/accept.py:57-79: one element of a header -/
def parseChunk (chunk : Str) : Option (Str × Str × Q) :=
  match (splitOn ';' chunk).map strip with
  | [] => none
  | mtype :: parts =>
    match cut '/' mtype with
    | none => none
    | some (main, sub) => some (main, sub, factor F parts)

/-- openid/yadis/accept.py:82: `a >= b` for the keys `(q, main, sub)` -/
def entryGe (a b : Str × Str × Q) : Bool :=
  if a.2.2 = b.2.2 then (if a.1 = b.1 then strLe b.2.1 a.2.1 else strLe b.1 a.1) else F.lt b.2.2 a.2.2

/-- openid/yadis/accept.py:45-82 `parseAcceptHeader` -/
def parseAcceptHeader (value : Str) : List (Str × Str × Q) :=
  sortBy (entryGe F) (((splitOn ',' value).map strip).filterMap (parseChunk F))

/-- openid/yadis/accept.py:105-106: what is known of the accepted types -/
structure Known (Q : Type) where
  default : Q
  mains : Dict Str Q := []
  subs : Dict (Str × Str) Q := []

/-- openid/yadis/accept.py:107-116: one accepted type -/
def learn (k : Known Q) (e : Str × Str × Q) : Known Q :=
  if e.1 = t!"*" then { k with default := F.max k.default e.2.2 }
  else if e.2.1 = t!"*" then { k with mains := k.mains.set e.1 (F.max ((k.mains.get? e.1).getD F.zero) e.2.2) }
  else { k with subs := k.subs.set (e.1, e.2.1) (F.max ((k.subs.get? (e.1, e.2.1)).getD F.zero) e.2.2) }

/-- openid/yadis/accept.py:99-116 -/
def known (accept : List (Str × Str × Q)) : Known Q :=
  accept.foldl (learn F) { default := if accept.isEmpty then F.one else F.zero }

/-- openid/yadis/accept.py:123-126: the quality of a type -/
def quality (k : Known Q) (main sub : Str) : Q :=
  match k.subs.get? (main, sub) with
  | some q => q
  | none => (k.mains.get? main).getD k.default

/-- openid/yadis/accept.py:119-130: one type after the other, counting the accepted ones -/
def collect (k : Known Q) : Nat → List Str → Except PyErr (List (Q × Nat × Q × Str))
  | _, [] => .ok []
  | i, mtype :: rest =>
    match splitOn '/' mtype with
    | [main, sub] =>
      if quality k main sub = F.zero then collect k i rest
      else do return (F.minus (quality k main sub), i, quality k main sub, mtype) :: (← collect k (i + 1) rest)
    | _ => .error .valueError

/-- openid/yadis/accept.py:132: comparison of the first two components, which decide -/
def rankLe (a b : Q × Nat × Q × Str) : Bool := if a.1 = b.1 then a.2.1 ≤ b.2.1 else F.lt a.1 b.1

/-- openid/yadis/accept.py:85-133 `matchTypes` -/
def matchTypes (accept : List (Str × Str × Q)) (have_ : List Str) : Except PyErr (List (Str × Q)) := do
  let l ← collect F (known F accept) 0 have_
  return (sortBy (rankLe F) l).map (fun x => (x.2.2.2, x.2.2.1))

/-- openid/yadis/accept.py:136-150 `getAcceptable` -/
def getAcceptable (header : Str) (have_ : List Str) : Except PyErr (List Str) := do
  let l ← matchTypes F (parseAcceptHeader F header) have_
  return l.map (·.1)

/-- openid/yadis/constants.py:12-16 `YADIS_ACCEPT_HEADER`, for three numbers -/
def yadisElements (a b c : Q) : List (Str × Option Q) :=
  [(t!"text/html", some a), (t!"application/xhtml+xml", some b), (t!"application/xrds+xml", some c)]

end Accept
