import Verif.Base.Url
import Verif.Base.Base64
open Py
def U : Url.Uni := ⟨id, fun _ => true, fun _ => true, fun s => some s⟩
def showS (s : Str) : String := ",".intercalate (s.map fun (c:Char) => toString c.toNat)
def showO (s : Option Str) : String := match s with | none => "None" | some s => showS s
def readS (l : String) : Str := if l.isEmpty then [] else (l.splitOn ",").map fun x => Char.ofNat x.toNat!
def main : IO Unit := do
  let stdin ← IO.getStdin
  let mut go := true
  while go do
    let l ← stdin.getLine
    if l.isEmpty then go := false
    else
      let l := l.trimAscii.toString
      match l.splitOn " " with
      | [cmd, arg] =>
        let s := readS arg
        let out := match cmd with
          | "split" => match Url.urlsplit U s with
            | .error _ => "ERR"
            | .ok r => "|".intercalate ([r.scheme, r.netloc, r.path, r.query, r.fragment].map showS) ++ "|" ++ showO (Url.hostname U r.netloc) ++ "|" ++ (match Url.port r.netloc with | .error _ => "ERR" | .ok none => "None" | .ok (some n) => toString n) ++ "|" ++ showO (Url.userinfo r.netloc).1 ++ "|" ++ showO (Url.userinfo r.netloc).2 ++ "|" ++ showS (Url.urlunsplit r) ++ "|" ++ (match Url.urldefrag U s with | .ok p => showS p.1 | .error _ => "ERR")
          | "unq" => showS (Percent.unquote s)
          | "qsl" => ";".intercalate ((Percent.parseQsl false s).map fun (p : Str × Str) => showS p.1 ++ "=" ++ showS p.2) ++ "#" ++ ";".intercalate ((Percent.parseQsl true s).map fun (p : Str × Str) => showS p.1 ++ "=" ++ showS p.2)
          | "quote" => showS (Percent.quote t!"/!$&'()*+,;=" s) ++ "|" ++ showS (Percent.quotePlusBytes (Utf8.encode s))
          | "dec" => showS (Utf8.decodeReplace (s.map fun (c:Char) => UInt8.ofNat c.toNat)) ++ "|" ++ (match Utf8.decode (s.map fun (c:Char) => UInt8.ofNat c.toNat) with | .ok _ => "ok" | .error _ => "ERR")
          | "b64" => match Base64.decode s with | .ok b => ",".intercalate (b.map fun (x:UInt8) => toString x.toNat) | .error _ => "ERR"
          | "idna" => match Url.idnaEncode U s with | .ok b => showS b | .error _ => "ERR"
          | "strip" => showS (strip s)
          | _ => "?"
        IO.println out
      | _ => IO.println "bad"
