"""Writes MANIFEST.json: collects the theorems cNN_* in lean/Verif/Props and the notes below."""
import json, re, glob, os
root = os.path.dirname(os.path.dirname(os.path.abspath(__file__)))
exec(open(os.path.join(root, 'tools', 'notes.py')).read())
by = {}
for f in sorted(glob.glob(root + '/lean/Verif/Props/*.lean')):
    ns = []
    for line in open(f):
        m = re.match(r'namespace (\S+)', line)
        if m: ns.append(m.group(1))
        m = re.match(r'end (\S+)', line)
        if m and ns and m.group(1) == ns[-1]: ns.pop()
        m = re.match(r'(?:@\[.*?\] )?theorem (\S+)', line)
        if m:
            name = m.group(1)
            full = '.'.join(ns + [name])
            k = re.match(r'c(\d\d+)_', name)
            if k: by.setdefault('C%02d' % int(k.group(1)), []).append(full)
            for pid in EXTRA.get(name, []): by.setdefault(pid, []).append(full)
claims = []
for line in open(root + '/properties.jsonl'):
    pid = json.loads(line)['id']
    status, note = NOTES.get(pid, ('partial', 'No theorem yet.'))
    ths = by.get(pid, [])
    if not ths and status == 'proved': raise SystemExit('no theorem for ' + pid)
    if ths or status != 'partial':
        claims.append({'property': pid, 'status': status, 'theorems': ths, 'note': note})
json.dump({'claims': claims}, open(root + '/MANIFEST.json', 'w'), indent=1, ensure_ascii=False)
print(len(claims), 'claims,', sum(len(c['theorems']) for c in claims), 'theorems')
