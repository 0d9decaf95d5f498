"""Regenerate /verif/MANIFEST.json from the theorem names in lean/Verif/Props.

Theorem names start with the property id (c01_...).  Status and notes come from
tools/status.json: {"C05": {"status": "partial", "note": "..."}}; default is proved.
"""
import json, re, glob, os
root = os.path.dirname(os.path.dirname(os.path.abspath(__file__)))
thms = {}
for f in sorted(glob.glob(root + '/lean/Verif/Props/*.lean')):
    for m in re.finditer(r'^theorem (c(\d\d+)_\S+)', open(f).read(), re.M):
        thms.setdefault('C' + m.group(2), []).append('Props.' + m.group(1))
status = json.load(open(root + '/tools/status.json'))
ids = [json.loads(l)['id'] for l in open(root + '/properties.jsonl') if l.strip()]
claims = []
for i in ids:
    st = status.get(i, {})
    if i not in thms and st.get('status') != 'not_applicable':
        continue
    claims.append({'property': i, 'status': st.get('status', 'proved'),
                   'theorems': thms.get(i, []), 'note': st.get('note', '')})
missing = set(thms) - set(ids)
assert not missing, missing
open(root + '/MANIFEST.json', 'w').write(
    '{"claims": [\n' + ',\n'.join(' ' + json.dumps(c) for c in claims) + '\n]}\n')
print(len(claims), 'claims,', sum(len(c['theorems']) for c in claims), 'theorems; todo:',
      [i for i in ids if i not in thms])
