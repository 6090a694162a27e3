"""Usage: mutate.py MUTANTS.py RESULTS.jsonl [SCRATCH]

MUTANTS.py defines M, a list of (property ids, module, definition, old text, new text, claim broken);
without property ids any failing property theorem counts.  Each edit is
made to a scratch copy of the project (outside /verif), the project is rebuilt, and the property theorems that fail,
directly or because a lemma they use fails, are recorded.  Needs /tmp/deps.tsv, the output of deps.lean.txt."""
import json, os, re, subprocess, sys, pathlib, collections, shutil
src = pathlib.Path('/tmp/mutsrc')  # a copy of /verif/lean/Verif and Verif.lean
scratch = pathlib.Path(sys.argv[3] if len(sys.argv) > 3 else '/tmp/mut/lean')
ns = {}
exec(open(sys.argv[1]).read(), ns)
out = pathlib.Path(sys.argv[2])
done = {json.loads(l)['key'] for l in out.read_text().splitlines()} if out.exists() else set()

deps = {}
for l in open('/tmp/deps.tsv'):
    n, _, r = l.rstrip('\n').partition('\t')
    deps[n] = r.split()
users = collections.defaultdict(set)
for n, r in deps.items():
    for u in r:
        users[u].add(n)

def closure(names):
    seen, todo = set(), list(names)
    while todo:
        n = todo.pop()
        if n in seen: continue
        seen.add(n)
        todo += users.get(n, ())
    return seen

def decl_at(path, line):
    lines = path.read_text().splitlines()
    # an error may be reported at the comment before a declaration
    if lines[min(line, len(lines)) - 1].startswith('/--'):
        while line < len(lines) and not re.match(r'(theorem|lemma|def|example)\b', lines[line - 1]): line += 1
    for i in range(min(line, len(lines)) - 1, -1, -1):
        if (m := re.match(r'(?:@\[.*?\]\s*)?(?:private |protected |noncomputable )*(theorem|lemma|def|instance|example|structure|inductive|abbrev)\b\s*(\S*)', lines[i])):
            return m.group(1), m.group(2)
    return 'file', str(path)

def full(short):
    return [n for n in deps if n == short or n.endswith('.' + short)]

def props_hit(bad):
    hit = closure(x for n in bad for x in full(n))
    return sorted({n.split('.')[-1] for n in hit if re.match(r'c\d\d_', n.split('.')[-1]) and n.startswith('Mcu.Props')})

TOP = re.compile(r'(theorem|lemma|def|instance|example|structure|inductive|abbrev|end|namespace|section|noncomputable|private|protected|open|variable|set_option|@\[|/--|/-!)')
def cut_proofs(path, lines_at):
    lines = path.read_text().splitlines()
    for l in lines_at:
        i = min(l, len(lines)) - 1
        while i > 0 and not re.match(r'(?:@\[.*?\]\s*)?(?:private |protected |noncomputable )*(theorem|lemma|example)\b', lines[i]): i -= 1
        j = i + 1
        while j < len(lines) and not TOP.match(lines[j]): j += 1
        text = '\n'.join(lines[i:j])
        m = re.search(r':= by\b|:=\s*\n|:= ', text)
        # the last ":=" of the statement: a line ending in ":= by" or ":="
        ends = [k for k in range(i, j) if re.search(r':=( by)?$', lines[k])]
        if ends: lines[i:j] = lines[i:ends[0]] + [re.sub(r':=( by)?$', ':= by sorry', lines[ends[0]]), '']
        elif m: lines[i:j] = (text[:m.start()] + ':= by sorry\n').splitlines() + ['']
    path.write_text('\n'.join(lines) + '\n')

for props, mod, dfn, old, new, claim in ns['M']:
    key = f'{mod}|{dfn}|{old}|{new}'
    if key in done: continue
    for f in src.rglob('*.lean'):
        if '.lake' in f.parts: continue
        g = scratch / f.relative_to(src)
        if not g.exists() or g.read_bytes() != f.read_bytes():
            g.parent.mkdir(parents=True, exist_ok=True); shutil.copyfile(f, g)
    p = scratch / 'Verif' / (mod + '.lean')
    text = p.read_text()
    # restrict the edit to the definition named
    m = re.search(rf'^(?:noncomputable )?(?:partial )?(?:def|instance|structure|abbrev) {re.escape(dfn)}(?![\w.])', text, re.M)
    if not m: print('NO DEF', mod, dfn); continue
    e = re.search(r'\n\n', text[m.start():])
    end = m.start() + (e.start() if e else len(text) - m.start())
    body = text[m.start():end]
    if body.count(old) < 1: print('NO MATCH', mod, dfn, repr(old)); continue
    if body.count(old) > 1: print('AMBIGUOUS (first taken)', mod, dfn, repr(old))
    p.write_text(text[:m.start()] + body.replace(old, new, 1) + text[end:])
    bad, model_bad, built = set(), False, False
    for attempt in range(6):
        if props:
            try:
                r = subprocess.run(['lake', 'build'], cwd=scratch, capture_output=True, text=True, timeout=2400)
                log = r.stdout + r.stderr
            except subprocess.TimeoutExpired:
                log = 'error: timeout'
        else:  # the first failure is enough
            r = subprocess.Popen(['lake', 'build'], cwd=scratch, stdout=subprocess.PIPE, stderr=subprocess.STDOUT, text=True,
                                 start_new_session=True)
            log = ''
            for l in r.stdout:
                log += l
                if (e := re.match(r'error: (Verif/\S+?\.lean):(\d+):', l)):
                    if e[1].startswith('Verif/Model') or props_hit({decl_at(scratch / e[1], int(e[2]))[1]}): break
            try: os.killpg(r.pid, 9)
            except ProcessLookupError: pass
            r.wait()
        errs = set(re.findall(r'error: (Verif/\S+?\.lean):(\d+):', log))
        if attempt == 0: built = 'error' not in log
        new_bad = set()
        for f, l in errs:
            k, n = decl_at(scratch / f, int(l))
            if f.startswith('Verif/Model') or 'Fl' in f.split('/')[-1][:2]: model_bad = True
            new_bad.add((f, k, n if k != 'example' else f'example at {f}:{l}', int(l)))
        bad |= {n for _, _, n, _ in new_bad}
        th = props_hit(bad)
        if model_bad or not new_bad or all(any(t.startswith(q.lower() + '_') for t in th) for q in props): break
        # modules that import a failed one have not been checked: put sorry for the failed proofs and go on
        for f in {f for f, _, _, _ in new_bad}:
            cut_proofs(scratch / f, sorted({l for g, _, _, l in new_bad if g == f}, reverse=True))
    th = props_hit(bad)
    rec = dict(key=key, props=props, module=mod, definition=dfn, old=old, new=new, claim=claim,
               failing=sorted(bad), theorems=th, model_broken=model_bad, built=built,
               caught={q: [t for t in th if t.startswith(q.lower() + '_')] for q in props})
    with out.open('a') as h: h.write(json.dumps(rec) + '\n')
    st = 'BADMODEL' if model_bad else 'ok' if all(rec['caught'].values()) and (props or th) else 'SURVIVED'
    print(st, dfn, '|', old.strip()[:40], '->', new.strip()[:40], '|', rec['failing'][:4], {q: len(v) for q, v in rec['caught'].items()}, flush=True)
