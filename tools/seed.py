#!/usr/bin/env python3
"""Apply wrong edits to a scratch copy of the model and report which theorems stop proving.

usage: seed.py edits.jsonl [--log]
Each line: {"def": ..., "file": "Model/X.lean", "old": ..., "new": ..., "edit": ..., "claim": ..., "expect": ["C10"]}
A failing proof in the scratch copy is replaced by `sorry` and the build continues, so that every
property theorem that (transitively) needs it is found with `#print axioms`.
"""
import json, os, re, shutil, subprocess, sys

SRC = os.environ.get('SEED_SRC', '/verif/lean')
SCR = os.environ.get('SEED_SCR', '/tmp/mut')

DECL = re.compile(r'^(?:@\[[^\]]*\]\s*)?(?:private |protected |noncomputable )*(theorem|lemma|example|def|instance|abbrev|structure|inductive)\b\s*(\S*)')
TOP = re.compile(r'^(\S)')


def sync():
    if not os.path.isdir(SCR):
        shutil.copytree(SRC, SCR, symlinks=True)
    for root, _, files in os.walk(os.path.join(SRC, 'Verif')):
        for f in files:
            s = os.path.join(root, f)
            d = os.path.join(SCR, os.path.relpath(s, SRC))
            os.makedirs(os.path.dirname(d), exist_ok=True)
            if not os.path.exists(d) or open(s).read() != open(d).read():
                shutil.copy(s, d)
    shutil.copy(os.path.join(SRC, 'Verif.lean'), os.path.join(SCR, 'Verif.lean'))


def build():
    p = subprocess.run(['lake', 'build'], cwd=SCR, capture_output=True, text=True)
    return p.returncode, p.stdout + p.stderr


def decl_at(lines, ln):
    """(start, end, kind, name) of the declaration containing line index ln"""
    i = min(ln, len(lines) - 1)
    while i >= 0 and not DECL.match(lines[i]):
        i -= 1
    if i < 0:
        return None
    m = DECL.match(lines[i])
    j = i + 1
    while j < len(lines) and not TOP.match(lines[j]):
        j += 1
    return i, j, m.group(1), m.group(2)


def cut_proof(text):
    depth = 0
    k = 0
    while k < len(text):
        c = text[k]
        if c in '([{⟨':
            depth += 1
        elif c in ')]}⟩':
            depth -= 1
        elif depth == 0 and text.startswith(':=', k):
            line = text[text.rfind('\n', 0, k) + 1:k]
            if not re.search(r'\b(let|have)\b', line):
                return text[:k] + ':= by sorry\n'
        elif depth == 0 and text.startswith('\n  |', k):
            return text[:k] + ' := by sorry\n'
        k += 1
    return None


def namespace_of(lines, i):
    st = []
    for l in lines[:i]:
        m = re.match(r'^namespace\s+(\S+)', l)
        if m:
            st.append(m.group(1))
        m = re.match(r'^end\s+(\S+)', l)
        if m and st and st[-1] == m.group(1):
            st.pop()
    return '.'.join(st)


def run(edit, manifest):
    sync()
    f = os.path.join(SCR, 'Verif', edit['file'])
    s = open(f).read()
    assert s.count(edit['old']) >= 1, 'old text not found: ' + edit['old']
    if edit.get('all'):
        s = s.replace(edit['old'], edit['new'])
    else:
        assert s.count(edit['old']) == 1, 'old text not unique: ' + edit['old']
        s = s.replace(edit['old'], edit['new'])
    open(f, 'w').write(s)
    lemmas, examples = [], 0
    for _ in range(60):
        rc, out = build()
        if rc == 0:
            break
        errs = {}
        for m in re.finditer(r'error: (?:\./)*(Verif/\S+\.lean):(\d+):\d+', out):
            errs.setdefault(m.group(1), set()).add(int(m.group(2)) - 1)
        if not errs:
            return None, out
        progress = False
        for path, lns in errs.items():
            fp = os.path.join(SCR, path)
            lines = open(fp).read().split('\n')
            ds = {}
            for ln in lns:
                d = decl_at(lines, ln)
                if d is None:
                    return None, out
                ds[d[0]] = d
            for i in sorted(ds, reverse=True):
                a, b, kind, name = ds[i]
                if kind not in ('theorem', 'lemma', 'example'):
                    return None, 'definition %s in %s does not compile\n' % (name, path) + out
                if kind == 'example':
                    examples += 1
                    if a and lines[a - 1].rstrip().endswith('-/'):
                        while a and not lines[a].startswith('/--'):
                            a -= 1
                    lines[a:b] = []
                    progress = True
                    continue
                t = cut_proof('\n'.join(lines[a:b]))
                if t is None or ':= by sorry' in '\n'.join(lines[a:b]):
                    return None, 'cannot cut %s in %s\n' % (name, path) + out
                q = (namespace_of(lines, a) + '.' + name).lstrip('.')
                lemmas.append(q)
                lines[a:b] = t.split('\n')
                progress = True
            open(fp, 'w').write('\n'.join(lines))
        if not progress:
            return None, out
    else:
        return None, 'no fixpoint'
    chk = os.path.join(SCR, 'Chk.lean')
    with open(chk, 'w') as h:
        h.write('import Verif\n' + ''.join('#print axioms %s\n' % t for t in manifest))
    p = subprocess.run(['lake', 'env', 'lean', 'Chk.lean'], cwd=SCR, capture_output=True, text=True)
    os.remove(chk)
    failed = []
    for m in re.finditer(r"'(\S+)' depends on axioms: \[([^\]]*)\]", p.stdout):
        if 'sorryAx' in m.group(2):
            failed.append(m.group(1))
    return (failed, [l for l in lemmas if l not in failed], examples), p.stdout if p.returncode else ''


def main():
    edits = [json.loads(l) for l in open(sys.argv[1]) if l.strip()]
    man = json.load(open('/verif/MANIFEST.json'))
    thms = [t for c in man['claims'] for t in c['theorems']]
    for e in edits:
        try:
            r, msg = run(e, thms)
        except AssertionError as x:
            print('!!', e['def'], x)
            continue
        if r is None:
            print('!! could not finish', e['def'], e['edit'])
            print(msg[-1500:])
            continue
        failed, lem, ex = r
        ids = sorted({'C' + re.search(r'\.c(\d\d+)_', t).group(1) for t in failed if re.search(r'\.c(\d\d+)_', t)})
        miss = [x for x in e.get('expect', []) if x not in ids]
        print(('SURVIVED ' if (not failed or miss) else 'killed   ') + e['def'] + ': ' + e['edit'])
        print('    failed:', ', '.join(t.replace('Props.', '') for t in failed), '| lemmas', len(lem), '| examples', ex,
              ('| NOT FAILED: %s' % miss if miss else ''))
        sys.stdout.flush()
        if '--log' in sys.argv:
            rec = {'definition': e['def'], 'file': 'lean/Verif/' + e['file'], 'edit': e['edit'], 'old': e['old'],
                   'new': e['new'], 'breaks': e['claim'], 'failed': failed, 'failed_lemmas': lem,
                   'failed_examples': ex, 'tightened': e.get('tightened', [])}
            if e.get('note'):
                rec['note'] = e['note']
            open('/verif/seeded/LOG.jsonl', 'a').write(json.dumps(rec, ensure_ascii=False) + '\n')


main()
