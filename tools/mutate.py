#!/usr/bin/env python3
"""Apply seeded bugs to a scratch copy of the model and record which theorems stop checking.

usage: mutate.py mutations.json
mutations.json: list of {"file", "definition", "old", "new", "edit", "claim"[, "tightened"]}
Each mutation replaces the (unique) text `old` by `new` in lean/<file> of a scratch copy, builds the modules of the
properties named in `claim`, and appends one line to seeded/LOG.jsonl.
"""
import json, os, re, shutil, subprocess, sys

SRC = os.environ.get('MUT_SRC', '/verif/lean')
DST = os.environ.get('MUT_DST', '/tmp/mut/lean')


def copy():
    os.makedirs(DST, exist_ok=True)
    for d in os.listdir(DST):
        p = os.path.join(DST, d)
        if d != '.lake':
            shutil.rmtree(p) if os.path.isdir(p) else os.remove(p)
    for d in os.listdir(SRC):
        if d != '.lake':
            p = os.path.join(SRC, d)
            subprocess.run(['cp', '-a', p, DST + '/'], check=True)


def build(targets=()):
    r = subprocess.run(['lake', 'build', *targets], cwd=DST, capture_output=True, text=True)
    return r.returncode, r.stdout + r.stderr


DECL = re.compile(r'(?:@\[.*?\]\s*)?(?:private |noncomputable |protected )*'
                  r'(theorem|lemma|example|def|instance|abbrev|structure|inductive)\b\s*(\S*)')
TOP = re.compile(r'(@\[|private |noncomputable |protected |theorem|lemma|example|def|instance|abbrev|structure|'
                 r'inductive|/--|/-!|end\b|namespace|section|open |variable|set_option|attribute|macro|syntax|local )')


def find_decl(path, line):
    """kind, name, first line, last line (0-based, exclusive) of the declaration around `line`"""
    ls = open(os.path.join(DST, path)).read().split('\n')
    s = None
    for i in range(min(line, len(ls))):
        m = DECL.match(ls[i])
        if m:
            s, kind, name = i, m.group(1), m.group(2)
    if s is None:
        return None
    e = s + 1
    while e < len(ls) and not TOP.match(ls[e]):
        e += 1
    if kind == 'example':
        name = 'example@%s:%d' % (os.path.basename(path), s + 1)
    return kind, name, s, e


def sorry_proof(path, s, e):
    """replace the proof of the theorem in lines s..e by sorry"""
    p = os.path.join(DST, path)
    ls = open(p).read().split('\n')
    text = '\n'.join(ls[s:e])
    depth, cut = 0, None
    for i, c in enumerate(text):
        if c in '([{⟨':
            depth += 1
        elif c in ')]}⟩':
            depth -= 1
        elif depth == 0 and (text.startswith(':=', i) or text.startswith('\n  | ', i)):
            cut = i
            break
    if cut is None:
        return False
    ls[s:e] = (text[:cut] + ' := by sorry\n').split('\n')
    open(p, 'w').write('\n'.join(ls))
    return True


def targets_of(claim):
    """the modules with the theorems of the properties named in the claim"""
    out = []
    for c in re.findall(r'C\d+', claim):
        for d, _, fs in os.walk(DST + '/Verif'):
            for f in fs:
                if f.endswith('.lean') and re.search(r'theorem ' + c + r'_', open(os.path.join(d, f)).read()):
                    mod = os.path.relpath(os.path.join(d, f), DST)[:-5].replace('/', '.')
                    if mod not in out:
                        out.append(mod)
    return out


def run(m):
    """The theorems that fail.  A lemma that fails is assumed (in the scratch copy) and the build repeated, so that the
    property theorems behind it are tested too."""
    copy()
    if not os.path.exists(DST + '/.lake'):
        subprocess.run(['cp', '-a', SRC + '/.lake', DST + '/.lake'], check=True)
    p = os.path.join(DST, m['file'])
    s = open(p).read()
    if s.count(m['old']) != 1:
        return None, 'NOT-UNIQUE'
    open(p, 'w').write(s.replace(m['old'], m['new']))
    targets = targets_of(m['claim'])
    failed = []
    for _ in range(10):
        rc, out = build(targets)
        if rc == 0:
            break
        todo = {}
        for e in re.finditer(r'error: (Verif/\S+?\.lean):(\d+):\d+', out):
            d = find_decl(e.group(1), int(e.group(2)))
            if d is None or d[0] not in ('theorem', 'lemma', 'example'):
                return failed, 'INVALID %s' % (d and d[1])
            todo[(e.group(1), d[2])] = d
            if d[1] not in failed:
                failed.append(d[1])
        if not todo:
            return failed, 'NO-ERROR-FOUND ' + out[-300:]
        for (path, s), d in sorted(todo.items(), key=lambda x: -x[0][1]):
            if not sorry_proof(path, d[2], d[3]):
                return failed, 'UNPARSED ' + d[1]
    direct = [f for f in failed if re.match(r'C\d+', f) or re.match(r'example@C\d+', f)]
    return failed, '' if direct else ('LEMMAS-ONLY' if failed else 'SURVIVED')


def main():
    muts = json.load(open(sys.argv[1]))
    for m in muts:
        failed, note = run(m)
        rec = {"definition": m['definition'], "edit": m['edit'], "claim": m['claim'],
               "theorems_failed": failed, "theorems_tightened": m.get('tightened', [])}
        print(json.dumps(rec)[:700], note, flush=True)
        if failed is None or note.startswith('INVALID'):
            continue
        with open('/verif/seeded/LOG.jsonl', 'a') as log:
            log.write(json.dumps(rec) + '\n')


main()
