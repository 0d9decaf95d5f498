import Verif.Base.Py
/-! # Model of openid/kvform.py

Keys and values are text.  Not modelled: conversion of non-text keys and values
(kvform.py:39-47, `six.text_type(k)`, `string_to_text` on bytes) and log output. -/

namespace KVForm
open Py

/-- openid/kvform.py:20-69 `seqToKV`, one pair: the checks of lines 49-65 in their order and the
    line of 67. -/
def pairToLine (strict : Bool) (k v : Str) : Except PyErr Str :=
  if '\n' ∈ k then .error .kvFormError
  else if ':' ∈ k then .error .kvFormError
  else if strict && strip k != k then .error .kvFormError
  else if '\n' ∈ v then .error .kvFormError
  else if strict && strip v != v then .error .kvFormError
  else .ok (k ++ ':' :: v ++ ['\n'])

/-- openid/kvform.py:20-69 `seqToKV` -/
def seqToKV (strict : Bool) : List (Str × Str) → Except PyErr Str
  | [] => .ok []
  | (k, v) :: r => do
    let line ← pairToLine strict k v
    let rest ← seqToKV strict r
    return line ++ rest

/-- openid/kvform.py:102-129, the loop over the lines in `kvToSeq` -/
def parseLines (strict : Bool) : List Str → Except PyErr (List (Str × Str))
  | [] => .ok []
  | line :: r =>
    if strip line = [] then parseLines strict r
    else match cut ':' line with
      | some (k, v) =>
        if strict && (strip k != k || strip k == [] || strip v != v) then .error .kvFormError
        else do
          let rest ← parseLines strict r
          return (strip k, strip v) :: rest
      | none => if strict then .error .kvFormError else parseLines strict r

/-- openid/kvform.py:94-98, splitting into lines and dropping the empty last one -/
def dataLines (strict : Bool) (data : Str) : Except PyErr (List Str) :=
  let lines := splitOn '\n' data
  match lines.getLast? with
  | some [] => .ok lines.dropLast
  | _ => if strict then .error .kvFormError else .ok lines

/-- openid/kvform.py:72-131 `kvToSeq` -/
def kvToSeq (strict : Bool) (data : Str) : Except PyErr (List (Str × Str)) := do
  let lines ← dataLines strict data
  parseLines strict lines

/-- comparison of `(key, value)` tuples used by `sorted(d.items())` -/
def pairLe (a b : Str × Str) : Bool := if a.1 = b.1 then strLe a.2 b.2 else strLe a.1 b.1

/-- openid/kvform.py:134-136 `dictToKV` -/
def dictToKV (d : Dict Str Str) : Except PyErr Str := seqToKV false (sortBy pairLe d)

/-- openid/kvform.py:139-140 `kvToDict` -/
def kvToDict (s : Str) : Except PyErr (Dict Str Str) := do
  let seq ← kvToSeq false s
  return Dict.ofPairs seq

end KVForm
