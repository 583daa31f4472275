#!/usr/bin/env python3
"""Regenerate MANIFEST.json from the theorem names in lean/Verif/Props and tools/notes.json."""
import json, re, pathlib
root = pathlib.Path(__file__).resolve().parent.parent
notes = json.loads((root / 'tools/notes.json').read_text())
thms = {}
for f in sorted((root / 'lean/Verif/Props').rglob('*.lean')):
    ns = []
    for line in f.read_text().splitlines():
        m = re.match(r'namespace\s+(\S+)', line)
        if m: ns.append(m.group(1))
        m = re.match(r'end\s+(\S+)', line)
        if m and ns and ns[-1] == m.group(1): ns.pop()
        m = re.match(r'(?:@\[[^\]]*\]\s*)?theorem\s+((C\d{2,3})_\w+)', line)
        if m: thms.setdefault(m.group(2), []).append('.'.join(ns + [m.group(1)]))
claims = []
for l in (root / 'properties.jsonl').read_text().splitlines():
    p = json.loads(l)['id']
    n = notes.get(p, {})
    ts = thms.get(p, [])
    if not ts and n.get('status') != 'not_applicable':
        print('no theorem yet:', p); continue
    st = n.get('status') or ('partial' if any(t.endswith('_partial') or 'counterexample' in t for t in ts) else 'proved')
    claims.append({'property': p, 'status': st, 'theorems': ts, 'note': n.get('note', '')})
(root / 'MANIFEST.json').write_text(json.dumps({'claims': claims}, indent=1, ensure_ascii=False) + '\n')
print(len(claims), 'claims;', sum(c['status'] == 'proved' for c in claims), 'proved')
