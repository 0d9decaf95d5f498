import Verif.Model.Message
/-! # Model of the HTML forms: openid/message.py `toFormMarkup`, openid/oidutil.py `autoSubmitHTML`

The element tree is lxml's.  Its `tostring` is modelled for the two elements used, as libxml2 writes attributes: in the
order in which they were set, in double quotes, with references for the characters listed in `escapeChar`.  lxml refuses
text that cannot be in XML (`xmlChar`) with a ValueError, and attribute names that are not XML names; which names those
are is a parameter (`okName`), and names in Clark notation (`{uri}name`) count as not accepted. -/

namespace Form
open Py Message

/-- a character that lxml accepts in text (`_is_valid_xml_utf8`) -/
def xmlChar (c : Char) : Bool :=
  c = '\t' || c = '\n' || c = '\r' || (32 ≤ c.toNat && c.toNat ≠ 0xFFFE && c.toNat ≠ 0xFFFF)

/-- how libxml2 writes a character in an attribute -/
def escapeChar (c : Char) : Str :=
  if c = '&' then t!"&amp;"
  else if c = '<' then t!"&lt;"
  else if c = '>' then t!"&gt;"
  else if c = '"' then t!"&quot;"
  else if c = '\n' then t!"&#10;"
  else if c = '\r' then t!"&#13;"
  else if c = '\t' then t!"&#9;"
  else [c]

def escape (s : Str) : Str := s.flatMap escapeChar

/-- `element.attrib[name] = value` -/
def setAttr (okName : Str → Bool) (d : Dict Str Str) (name value : Str) : Except PyErr (Dict Str Str) :=
  if !okName name then .error .valueError
  else if !value.all xmlChar then .error .valueError
  else .ok (d.set name value)

/-- the attributes of a tag as written -/
def attrsText (d : Dict Str Str) : Str := d.flatMap fun p => ' ' :: p.1 ++ t!"=\"" ++ escape p.2 ++ t!"\""

/-- openid/message.py:361-370: the attributes of the form -/
def formAttrs (okName : Str → Bool) (action : Str) (attrs : Dict Str Str) : Except PyErr (Dict Str Str) := do
  let d ← attrs.foldlM (fun d p => setAttr okName d p.1 p.2) []
  let d ← setAttr (fun _ => true) d t!"action" action
  let d ← setAttr (fun _ => true) d t!"method" t!"post"
  let d ← setAttr (fun _ => true) d t!"accept-charset" t!"UTF-8"
  setAttr (fun _ => true) d t!"enctype" t!"application/x-www-form-urlencoded"

/-- `ElementTree.Element('input', attrs)` as written; the names are those of the code, so they are good -/
def input (attrs : Dict Str Str) : Except PyErr Str :=
  if !attrs.all (fun p => p.2.all xmlChar) then .error .valueError
  else .ok (t!"<input" ++ attrsText attrs ++ t!"/>")

/-- openid/message.py:372-374: a hidden field -/
def hidden (p : Str × Str) : Except PyErr Str := input [(t!"type", t!"hidden"), (t!"name", p.1), (t!"value", p.2)]

/-- openid/message.py:336-379 `toFormMarkup` -/
def toFormMarkup (okName : Str → Bool) (m : Msg) (action : Str) (attrs : Dict Str Str) (submit : Str) :
    Except PyErr Str := do
  let d ← formAttrs okName action attrs
  let fields ← m.toPostArgs.mapM hidden
  let button ← input [(t!"type", t!"submit"), (t!"value", submit)]
  return t!"<form" ++ attrsText d ++ t!">" ++ fields.flatten ++ button ++ t!"</form>"

/-- openid/oidutil.py:19-36 `autoSubmitHTML` -/
def autoSubmitHTML (form title : Str) : Str :=
  t!"\n<html>\n<head>\n  <title>" ++ title ++
  t!"</title>\n</head>\n<body onload=\"document.forms[0].submit();\">\n" ++ form ++
  t!"\n<script>\nvar elements = document.forms[0].elements;\nfor (var i = 0; i < elements.length; i++) {\n  elements[i].style.display = \"none\";\n}\n</script>\n</body>\n</html>\n"

/-- openid/oidutil.py:19: the title when none is given -/
def defaultTitle : Str := t!"OpenID transaction in progress"
/-- openid/message.py:337: the text of the button when none is given -/
def defaultSubmit : Str := t!"Continue"

end Form
