# Writes /verif/MANIFEST.json: collects theorems named C<nn>_... from lean/Verif/Props and merges the
# status and note given below.
import json, re, glob, os
root = os.path.dirname(os.path.dirname(os.path.abspath(__file__)))
thms = {}
for f in sorted(glob.glob(root + '/lean/Verif/Props/*.lean')):
    for m in re.finditer(r'^theorem (C(\d\d+)_\w+)', open(f).read(), re.M):
        thms.setdefault('C' + m.group(2), []).append('Emva.' + m.group(1))
notes = json.load(open(root + '/tools/notes.json'))
ids = [json.loads(l)['id'] for l in open(root + '/properties.jsonl')]
claims = []
for i in ids:
    st, note = notes.get(i, ['proved', ''])
    t = thms.get(i, [])
    if not t:
        if st == 'proved':
            continue
    claims.append(dict(property=i, status=st, theorems=t, note=note))
json.dump(dict(claims=claims), open(root + '/MANIFEST.json', 'w'), indent=1, ensure_ascii=False)
print(len(claims), 'claims', sum(len(c['theorems']) for c in claims), 'theorems; missing:',
      [i for i in ids if i not in {c['property'] for c in claims}])
