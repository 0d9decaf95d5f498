#!/usr/bin/env python3
"""Make small wrong edits to definitions of the model automatically and report those that no proof notices.

usage: mutate.py gen out.jsonl [perdef] [regex of files]     make a list of edits
       mutate.py run edits.jsonl results.jsonl worker-dir     try each in a scratch copy
An edit is noticed when a lemma or theorem stops proving; `deps.txt` (theorem, tab, all constants it uses; made from the
unedited project) tells which property theorems rest on that lemma.  Failing examples are removed and the build goes on.
"""
import glob, json, os, random, re, shutil, subprocess, sys

SRC = os.environ.get('SEED_SRC', '/verif/lean')
DEF = re.compile(r'^(?:@\[[^\]]*\]\s*)?(?:private |protected |noncomputable )*(def|abbrev)\s+(\S+)')
DECL = re.compile(r'^(?:@\[[^\]]*\]\s*)?(?:private |protected |noncomputable |local |scoped )*(theorem|lemma|example|def|instance|abbrev|structure|inductive)\b\s*(\S*)')
ERRS = ['valueError', 'keyError', 'typeError', 'runtimeError', 'assertionError', 'attributeError', 'protocolError',
        'discoveryFailure', 'fetchingError', 'axError', 'kvFormError', 'xrdsError', 'invalidNamespace', 'unicodeError',
        'integrityError', 'lookupError', 'osError', 'invalidOpenIDNamespace', 'xrdsFraud', 'notAXMessage', 'typeURIMismatch']


def blocks(path):
    lines = open(path).read().split('\n')
    i = 0
    while i < len(lines):
        m = DEF.match(lines[i])
        if m:
            j = i + 1
            while j < len(lines) and lines[j] != '' and not re.match(r'^\S', lines[j]):
                j += 1
            yield m.group(2), i, j, lines
            i = j
        else:
            i += 1


def mutants(text):
    """(description, new text) for a definition's text"""
    out = []
    k = text.find(':=')
    k2 = text.find('\n  |')
    st = min(x for x in (k, k2, len(text)) if x >= 0)
    def sub(rx, f, desc):
        for m in re.finditer(rx, text):
            if m.start() < st:
                continue
            ln = text[text.rfind('\n', 0, m.start()) + 1:m.start()]
            if '--' in ln:
                continue
            new = f(m)
            if new != m.group(0):
                out.append(('%s: %r to %r' % (desc, m.group(0), new), text[:m.start()] + new + text[m.end():]))
    sub(r't!"([^"\n]*)"', lambda m: 't!"%sz"' % m.group(1), 'text')
    sub(r"(?<= )'(.)'(?= )", lambda m: "'%s'" % ('~' if m.group(1) != '~' else '!'), 'character')
    sub(r'(?<=[ (])\.(%s)\b' % '|'.join(ERRS), lambda m: '.osError' if m.group(1) != 'osError' else '.lookupError', 'exception')
    sub(r'\bif (?!h\w* :)((?:(?!\bthen\b|\n).)+) then', lambda m: 'if ¬(%s) then' % m.group(1), 'condition')
    sub(r'&&', lambda m: '||', 'connective')
    sub(r'\|\|', lambda m: '&&', 'connective')
    sub(r'∧', lambda m: '∨', 'connective')
    sub(r'∨', lambda m: '∧', 'connective')
    sub(r' < ', lambda m: ' ≤ ', 'boundary')
    sub(r' ≤ ', lambda m: ' < ', 'boundary')
    sub(r' == ', lambda m: ' != ', 'test')
    sub(r' ≠ ', lambda m: ' = ', 'test')
    sub(r'(?<=[ (\[])(\d+)(?=[ )\],\n])', lambda m: str(int(m.group(1)) + 1), 'number')
    sub(r'\btrue\b', lambda m: 'false', 'boolean')
    sub(r'\bfalse\b', lambda m: 'true', 'boolean')
    sub(r'\(some (\w+)\)', lambda m: 'none', 'dropped')
    sub(r'\bsome (\w+)$', lambda m: 'none', 'dropped')
    sub(r'!(?=[(\w])', lambda m: '', 'negation')
    sub(r'\n +(?:Prog\.ofPy|check\w+|put\w+|drop\w+|\w+\.set\w*) [^\n]*(?=\n)',
        lambda m: '' if ':=' not in m.group(0) and '←' not in m.group(0) and '|' not in m.group(0) else m.group(0), 'statement')
    sub(r' \+\+ ', lambda m: ' ++ [] ++ ' if False else ' ++ ', 'x')
    sub(r'(\w+) \+\+ (\w+)', lambda m: '%s ++ %s' % (m.group(2), m.group(1)), 'order')
    sub(r' \+ (?=\w)', lambda m: ' - ', 'sign')
    sub(r' - (?=\w)', lambda m: ' + ', 'sign')
    return out


def gen(out, per, rx):
    seen = set()
    for l in open('/verif/seeded/LOG.jsonl'):
        d = json.loads(l)
        seen.add(d['definition'].split('.')[-1])
    rnd = random.Random(int(os.environ.get('SEED', '1')))
    res = []
    for f in sorted(glob.glob(SRC + '/Verif/Model/*.lean') + glob.glob(SRC + '/Verif/Base/*.lean')):
        rel = os.path.relpath(f, SRC + '/Verif')
        if not re.search(rx, rel):
            continue
        for name, i, j, lines in blocks(f):
            if os.environ.get('NEW') and name.split('.')[-1] in seen:
                continue
            text = '\n'.join(lines[i:j])
            ms = mutants(text)
            rnd.shuffle(ms)
            for d, new in ms[:per]:
                res.append({'def': name, 'file': rel, 'old': text, 'new': new, 'edit': d})
    rnd.shuffle(res)
    with open(out, 'w') as h:
        for r in res:
            h.write(json.dumps(r, ensure_ascii=False) + '\n')
    print(len(res))


def namespace_of(lines, i):
    st = []
    for l in lines[:i]:
        m = re.match(r'^namespace\s+(\S+)', l)
        if m:
            st.append(m.group(1))
        m = re.match(r'^end\s+(\S+)', l)
        if m and st and st[-1] == m.group(1):
            st.pop()
    return '.'.join(st)


def decl_at(lines, ln):
    i = min(ln, len(lines) - 1)
    while i >= 0 and not DECL.match(lines[i]):
        i -= 1
    if i < 0:
        return None
    m = DECL.match(lines[i])
    j = i + 1
    while j < len(lines) and not re.match(r'^\S', lines[j]):
        j += 1
    return i, j, m.group(1), m.group(2)


def restore(scr, touched):
    """put sources and compiled files back"""
    for f in touched:
        shutil.copy(os.path.join(SRC, f), os.path.join(scr, f))
    for top in ('.lake/build/lib', '.lake/build/ir'):
        a = os.path.join(SRC, top)
        for root, _, files in os.walk(a):
            r = os.path.join(scr, os.path.relpath(root, SRC))
            for x in files:
                s, d = os.path.join(root, x), os.path.join(r, x)
                ss = os.stat(s)
                try:
                    ds = os.stat(d)
                    same = ds.st_size == ss.st_size and ds.st_mtime_ns == ss.st_mtime_ns
                except OSError:
                    same = False
                if not same:
                    if os.path.exists(d):
                        os.remove(d)
                    shutil.copy2(s, d)


def run_one(e, scr, deps):
    touched = {'Verif/' + e['file']}
    f = os.path.join(scr, 'Verif', e['file'])
    s = open(f).read()
    assert s.count(e['old']) == 1
    open(f, 'w').write(s.replace(e['old'], e['new']))
    try:
        for _ in range(40):
            p = subprocess.Popen(['lake', 'build'], cwd=scr, stdout=subprocess.PIPE, stderr=subprocess.STDOUT, text=True,
                                 start_new_session=True)
            exs, found = set(), None
            for line in p.stdout:
                m = re.match(r'error: (?:\./)*(Verif/\S+\.lean):(\d+):\d+', line)
                if not m:
                    continue
                lines = open(os.path.join(scr, m.group(1))).read().split('\n')
                d = decl_at(lines, int(m.group(2)) - 1)
                if d is None:
                    found = ('invalid', m.group(0))
                elif d[2] == 'example':
                    exs.add((m.group(1), d[0], d[1]))
                    continue
                elif d[2] in ('theorem', 'lemma'):
                    q = (namespace_of(lines, d[0]) + '.' + d[3]).lstrip('.')
                    ths = deps.get(q, [])
                    if q.startswith('Props.') and q not in ths:
                        ths = [q] + ths
                    if ths:
                        found = ('killed', q, ths)
                    else:
                        found = ('unused lemma', q)
                else:
                    found = ('invalid', '%s %s' % (d[2], d[3]) + line)
                if found:
                    break
            if found:
                try:
                    os.killpg(p.pid, 9)
                except OSError:
                    pass
            p.wait()
            if found:
                return found
            if p.returncode == 0:
                return ('SURVIVED',)
            if not exs:
                return ('invalid', 'build failed')
            for path in {x[0] for x in exs}:
                touched.add(path)
                fp = os.path.join(scr, path)
                lines = open(fp).read().split('\n')
                for _, a, b in sorted((x for x in exs if x[0] == path), key=lambda x: -x[1]):
                    if a and lines[a - 1].rstrip().endswith('-/'):
                        a -= 1
                        while a and '/-' not in lines[a]:
                            a -= 1
                    lines[a:b] = []
                open(fp, 'w').write('\n'.join(lines))
        return ('no fixpoint',)
    finally:
        restore(scr, touched)


def run(edits, results, scr):
    deps = {}
    for l in open(os.environ.get('DEPS', '/tmp/w/deps.txt')):
        t, cs = l.rstrip('\n').split('\t')
        for c in cs.split(' '):
            deps.setdefault(c, []).append(t)
    if not os.path.isdir(scr):
        subprocess.run(['cp', '-a', SRC, scr], check=True)
    done = set()
    if os.path.exists(results):
        for l in open(results):
            d = json.loads(l)
            done.add((d['def'], d['new']))
    for l in open(edits):
        e = json.loads(l)
        if (e['def'], e['new']) in done:
            continue
        r = run_one(e, scr, deps)
        e['result'] = r
        with open(results, 'a') as h:
            h.write(json.dumps(e, ensure_ascii=False) + '\n')


if sys.argv[1] == 'gen':
    gen(sys.argv[2], int(sys.argv[3]) if len(sys.argv) > 3 else 1, sys.argv[4] if len(sys.argv) > 4 else '.')
else:
    run(*sys.argv[2:5])
