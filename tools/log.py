"""Usage: log.py RESULTS.jsonl: turn the results of mutate.py into lines of seeded/LOG.jsonl and list the survivors.
tools/tightened.json maps the key of a mutant to the theorems that were tightened because of it."""
import json, sys, pathlib
root = pathlib.Path(__file__).parent.parent
tp = root / 'tools' / 'tightened.json'
tight = json.loads(tp.read_text()) if tp.exists() else {}
titles = {p['id']: p['title'] for p in map(json.loads, (root / 'properties.jsonl').read_text().splitlines())}
out = []
last = {}  # a later attempt with the same edit replaces the earlier one
for f in sys.argv[1:]:
    for l in open(f):
        d = json.loads(l)
        if not d['model_broken']: last[d['key']] = d
for d in last.values():
    if not d['props']:  # a random edit: the first property hit is the one it breaks
        if not d['theorems']: print('SURVIVES', d['definition'], repr(d['old']), '->', repr(d['new']))
        d['props'] = sorted({t[:3].upper() for t in d['theorems']})[:1]
        d['claim'] = titles[d['props'][0]] if d['props'] else d.get('verdict', 'not yet analysed')
        d['caught'] = {q: True for q in d['props']}
    out.append({'definition': f"lean/Verif/{d['module']}.lean: {d['definition']}",
                'edit': f"replace `{d['old']}` by `{d['new']}`",
                'claim_broken': f"{', '.join(d['props'])}: {d['claim']}",
                'failed_directly': d['failing'],
                'theorems_failed': d['theorems'],
                'theorems_tightened': tight.get(d['key'], [])})
    miss = [p for p in d['props'] if not d['caught'].get(p)]
    if miss: print('SURVIVES', miss, d['definition'], repr(d['old']), '->', repr(d['new']), '|', d['claim'], '|', d['theorems'][:4])
(root / 'seeded' / 'LOG.jsonl').write_text(''.join(json.dumps(o, ensure_ascii=False) + '\n' for o in out))
print(len(out), 'attempts')
