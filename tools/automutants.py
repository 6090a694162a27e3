"""Usage: automutants.py SEED PER_DEFINITION RESULTS... > MUTANTS.py

Draws edits of the model at random: swapped comparisons and operators, changed constants, swapped branches, swapped
components.  Edits that occur in the given results are left out.  The output is for mutate.py; the empty list of properties
means that any failing property theorem counts."""
import re, random, sys, json, pathlib
rnd = random.Random(int(sys.argv[1])); per = int(sys.argv[2])
done = set()
for f in sys.argv[3:]:
    for l in pathlib.Path(f).read_text().splitlines(): done.add(json.loads(l)['key'])
model = pathlib.Path(__file__).resolve().parent.parent / 'lean/Verif/Model'
SWAP = {' < ': ' ≤ ', ' ≤ ': ' < ', ' > ': ' ≥ ', ' ≥ ': ' > ', ' + ': ' - ', ' - ': ' + ', ' * ': ' + ', ' / ': ' * ', ' ∧ ': ' ∨ ', ' ∨ ': ' ∧ ',
        ' && ': ' || ', ' || ': ' && ', 'true': 'false', 'false': 'true', ' == ': ' != ', ' != ': ' == ', ' = ': ' ≠ ', ' ≠ ': ' = ',
        'fmin': 'fmax', 'fmax': 'fmin', '.1': '.2', '.2': '.1', 'Red': 'Green', 'Green': 'Blue', 'Blue': 'Red', '.neutral ': '.neutralVariant ',
        'isDark': 'isDark.not', '++ ': '++ [] ++ ', 'sin ': 'cos ', 'cos ': 'sin ', 'hue': 'chroma', 'chroma': 'hue'}
TOK = re.compile('|'.join(sorted(map(re.escape, SWAP), key=len, reverse=True)) + r'|(?<![\w.])\d+\.\d+(?!\d)|(?<![\w.])\d+(?![\w.])')
out = []
for f in sorted(model.glob('*.lean')):
    text = f.read_text()
    for m in re.finditer(r'^(?:noncomputable )?(?:partial )?def (\S+)', text, re.M):
        e = re.search(r'\n\n', text[m.start():])
        body = text[m.start(): m.start() + (e.start() if e else len(text))]
        k = body.find(':=')
        b2 = body.find('\n  |')
        start = min(x for x in (k, b2, len(body)) if x >= 0)
        cand = []
        for t in TOK.finditer(body, start + 2):
            s = t.group()
            if s in SWAP: n = SWAP[s]
            elif '.' in s: n = rnd.choice([str(float(s) + 1), str(round(float(s) * 1.1 + 0.01, 6))])
            else: n = str(int(s) + rnd.choice([1, 1, -1 if int(s) > 0 else 1]))
            a, z = max(start, t.start() - 14), min(len(body), t.end() + 14)
            old = body[a:z]
            if body.count(old) != 1: continue
            new = body[a:t.start()] + n + body[t.end():z]
            key = f'Model/{f.stem}|{m.group(1)}|{old}|{new}'
            if key in done: continue
            cand.append(([], f'Model/{f.stem}', m.group(1), old, new, ''))
        rnd.shuffle(cand)
        out += cand[:per]
rnd.shuffle(out)
print('M = [')
for x in out: print('  ' + repr(x) + ',')
print(']')
