#!/usr/bin/env python3
"""Transcribe the report templates (report/templates) for Lean: their texts as they are, and their syntax trees.

usage: gen_report.py   (writes lean/Verif/Model/ReportTex.lean and lean/Verif/Model/TemplateFiles.lean)

The syntax trees need not be trusted: theorem C103_templates proves that they are what the texts are read as.

The text is split like the lexer of jinja2 does with the delimiters of report.py lines 232-238: `%{{ .. %}}` is a value,
`%{ .. %}` a statement, a minus sign next to the delimiter strips the white space on that side, and the last line end of a file
is dropped.
"""
import re

REPO = '/repo/src/emva1288/report/templates/'
OUT = '/verif/lean/Verif/Model/ReportTex.lean'


def lit(s):
    return '"' + s.replace('\\', '\\\\').replace('"', '\\"').replace('\n', '\\n').replace('\t', '\\t') + '"'


def tokens(name):
    src = open(REPO + name).read()
    if src.endswith('\n'):
        src = src[:-1]
    out, pos, strip = [], 0, False
    for m in re.finditer(r'%\{\{(.*?)%\}\}|%\{(-?)(.*?)(-?)%\}', src, re.S):
        text = src[pos:m.start()]
        if strip:
            text = text.lstrip()
        strip = False
        if m.group(1) is None and m.group(2):
            text = text.rstrip()
        if text:
            out.append(('text', text, src.count('\n', 0, pos) + 1))
        line = src.count('\n', 0, m.start()) + 1
        if m.group(1) is not None:
            out.append(('out', m.group(1).strip(), line))
        else:
            out.append(('stmt', m.group(3).strip(), line))
            strip = bool(m.group(4))
        pos = m.end()
    text = src[pos:]
    if strip:
        text = text.lstrip()
    if text:
        out.append(('text', text, src.count('\n', 0, pos) + 1))
    return out


def path(s):
    parts = s.strip().split('.')
    assert all(re.fullmatch(r'\w+', p) for p in parts), s
    e = '.var %s' % lit(parts[0])
    for p in parts[1:]:
        e = '.attr (%s) %s' % (e, lit(p))
    return e


def expr(s):
    m = re.fullmatch(r"'%\.(\d+)f' % ([\w.]+)", s)
    if m:
        return '.percent %s (%s)' % (m.group(1), path(m.group(2)))
    m = re.fullmatch(r'([\w.]+)\|missingnumber\((\d+)\)', s)
    if m:
        return '.missingNumber (%s) %s' % (path(m.group(1)), m.group(2))
    m = re.fullmatch(r'([\w.]+)\|missing\(([\w.]+)\)', s)
    if m:
        return '.missing (%s) (%s)' % (path(m.group(1)), path(m.group(2)))
    m = re.fullmatch(r'([\w.]+)\|missing', s)
    if m:
        return '.missing (%s) (.lit "-")' % path(m.group(1))
    return path(s)


def cond(s):
    m = re.fullmatch(r'([\w.]+) == "(\w+)"', s)
    if m:
        return '.eqStr (%s) %s' % (path(m.group(1)), lit(m.group(2)))
    m = re.fullmatch(r'not ([\w.]+)', s)
    if m:
        return '.isFalse (%s)' % path(m.group(1))
    return '.isTrue (%s)' % path(s)


def defname(f):
    base, ext = f.split('.')
    w = base.split('_')
    return w[0] + ''.join(x.capitalize() for x in w[1:]) + ext.capitalize()


def parse(toks, i, stop):
    """nodes (as a Lean list) until one of the statements in stop"""
    parts, cur = [], []

    def flush():
        nonlocal cur
        if cur:
            parts.append('[' + ',\n  '.join(cur) + ']')
            cur = []
    while i < len(toks):
        kind, s, line = toks[i]
        if kind == 'text':
            cur.append('/- line %d -/ .text %s' % (line, lit(s)))
        elif kind == 'out':
            cur.append('/- line %d -/ .out (%s)' % (line, expr(s)))
        else:
            w = s.split()[0]
            if w in stop:
                flush()
                return ' ++\n  '.join(parts) or '[]', i
            if w == 'include':
                flush()
                parts.append(defname(re.fullmatch(r"include '(.*)'", s).group(1)))
            elif w == 'if':
                c, i = branch(toks, i, line)
                cur.append(c)
            elif w == 'for':
                m = re.fullmatch(r'for (\w+) in ([\w.]+)', s)
                m2 = re.fullmatch(r'for (\w+), (\w+) in ([\w.]+)\.items\(\)', s)
                body, i = parse(toks, i + 1, ('endfor',))
                if m:
                    cur.append('/- line %d -/ .loop %s (%s) (%s)' % (line, lit(m.group(1)), path(m.group(2)), body))
                else:
                    cur.append('/- line %d -/ .items %s %s (%s) (%s)' % (line, lit(m2.group(1)), lit(m2.group(2)),
                                                                      path(m2.group(3)), body))
            else:
                raise ValueError(s)
        i += 1
    assert not stop
    flush()
    return ' ++\n  '.join(parts) or '[]', i


def branch(toks, i, line):
    c = cond(toks[i][1].split(None, 1)[1])
    t, i = parse(toks, i + 1, ('elif', 'endif'))
    if toks[i][1].split()[0] == 'elif':
        e, i = branch(toks, i, toks[i][2])
        e = '[%s]' % e
    else:
        e = '[]'
    return '/- line %d -/ .ite (%s) (%s) (%s)' % (line, c, t, e), i


with open(OUT, 'w') as f:
    f.write('''import Verif.Model.Jinja

/-!
The templates of the report (report/templates), transcribed by tools/gen_report.py.
-/
set_option autoImplicit false
set_option maxRecDepth 4000
namespace Emva
namespace Jinja

''')
    for name in ('op_header.tex', 'general_info.tex', 'op.tex', 'report.tex', 'emvadatasheet.sty'):
        body, _ = parse(tokens(name), 0, ())
        n = open(REPO + name).read().count('\n')
        f.write('/-- report/templates/%s lines 1-%d -/\ndef %s : List Node :=\n  %s\n\n' % (name, n, defname(name), body))
    f.write('end Jinja\nend Emva\n')

out='''import Verif.Py.Chars
import Verif.Model.JinjaLexer

/-!
The texts of the templates (report/templates), copied by tools/gen_report.py, and how they are found and read
(report/report.py lines 230-239, 308, 314).
-/
set_option autoImplicit false
namespace Emva
namespace Jinja

'''
names=('report.tex','general_info.tex','op.tex','op_header.tex','emvadatasheet.sty')
for n in names:
    s=open(REPO + n).read()
    assert '"#' not in s
    out+='/-- report/templates/%s lines 1-%d -/\nnoncomputable def %sFile : Str := chars! r#"%s"#\n\n'%(n,s.count('\n'),defname(n),s)
out+='''/-- the directory of the templates. report/report.py lines 230-231, 239. -/
noncomputable def templateFiles : List (Str × Str) := [%s]

'''%',\n  '.join('("%s".toList, %sFile)'%(n,defname(n)) for n in names)
out+='''/-- `renderer.get_template(name)` and the templates that it includes, up to a given depth.
report/report.py lines 239, 308, 314 and report/templates/report.tex lines 45, 47. -/
def getTemplate (files : List (Str × Str)) : List Unit → Str → Option (List Node)
  | [], _ => none
  | _ :: n, name =>
    match Dict.get? files name with
    | none => none
    | some s => template (getTemplate files n) s

end Jinja
end Emva
'''
open('/verif/lean/Verif/Model/TemplateFiles.lean','w').write(out)
