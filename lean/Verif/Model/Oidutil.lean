import Verif.Base.Percent
import Verif.Model.KVForm
/-! # Model of openid/oidutil.py `appendArgs`

Texts only: bytes arguments (deprecated) and the Python 2 branch of line 103 are not modelled. -/

namespace Oidutil
open Py

/-- openid/oidutil.py:80-105 `appendArgs` for a sequence of pairs -/
def appendArgsSeq (url : Str) (args : List (Str × Str)) : Str :=
  if args = [] then url
  else
    let sep := if '?' ∈ url then '&' else '?'
    url ++ sep :: Percent.urlencode args

/-- openid/oidutil.py:60-105 `appendArgs` for a mapping: items are sorted first (line 80-81) -/
def appendArgs (url : Str) (args : Dict Str Str) : Str :=
  appendArgsSeq url (sortBy KVForm.pairLe args)

end Oidutil
