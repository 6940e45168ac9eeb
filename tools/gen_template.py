#!/usr/bin/env python3
"""Transcribe the docstrings of Results1288 and the references of the report template into Lean tables.

usage: gen_template.py   (writes lean/Verif/Model/ResultsDocs.lean and lean/Verif/Model/Template.lean)
"""
import ast, re

REPO = '/repo/src/emva1288/'
OUT = '/verif/lean/Verif/Model/'


def lit(s):
    return '"' + s.replace('\\', '\\\\').replace('"', '\\"').replace('\n', '\\n').replace('\t', '\\t') + '"'


def chars(s):
    def c(x):
        return {"'": "'\\''", '\\': "'\\\\'", '\n': "'\\n'", '\t': "'\\t'"}.get(x, "'%s'" % x)
    return '[' + ', '.join(c(x) for x in s) + ']'


src = open(REPO + 'process/results.py').read()
cls = [n for n in ast.parse(src).body if isinstance(n, ast.ClassDef)][0]
rows = []
for n in cls.body:
    if isinstance(n, ast.FunctionDef):
        d = ast.get_docstring(n, clean=False)
        rows.append((n.name, d, n.body[0].lineno if d else n.lineno, n.body[0].end_lineno if d else n.lineno))
with open(OUT + 'ResultsDocs.lean', 'w') as f:
    f.write('''import Verif.Py.Str

/-!
The docstrings of the methods and properties of `Results1288` (process/results.py), transcribed by
tools/gen_template.py.  The entries that python adds to the dictionary of a class (`__module__`,
`__dict__`, `__weakref__`, `__doc__`) are left out: their docstrings are those of built-in types and
have no `emva1288` block.
-/
set_option autoImplicit false
set_option maxRecDepth 20000
namespace Emva
namespace Report

''')
    for name, d, a, b in rows:
        f.write('/-- process/results.py lines %d-%d -/\ndef doc_%s : Str := %s\n\n' % (a, b, name.strip('_'), chars(d or '')))
    f.write('''/-- The attributes of the class with their docstrings. -/
def resultsDocs : List (Str × Option Str) := [
''')
    f.write(',\n'.join('  (%s, some doc_%s)' % (chars(name), name.strip('_')) for name, d, a, b in rows))
    f.write(''']

end Report
end Emva
''')

tex = open(REPO + 'report/templates/op.tex').read().split('\n')
refs, cells = [], []
for i, l in enumerate(tex, 1):
    for s, a, k in re.findall(r'op\.results\.(\w+)\.(\w+)\.(\w+)', l):
        refs.append((i, s, a, k))
    m = re.search(r"'%\.(\d)f' % op\.results\.(\w+)\.(\w+)\.value", l)
    if m:
        cells.append((i, m.group(3), int(m.group(1)), False))
    m = re.search(r"op\.results\.(\w+)\.(\w+)\.value\|missingnumber\((\d)\)", l)
    if m:
        cells.append((i, m.group(2), int(m.group(3)), True))
assert len(cells) == sum(1 for r in refs if r[3] == 'value')
plots = [(i, c) for i, l in enumerate(tex, 1) for c in re.findall(r'op\.plots\.(\w+)', l)]
with open(OUT + 'Template.lean', 'w') as f:
    f.write('''import Verif.Model.Attrs
import Verif.Model.Missing
import Verif.Model.ResultsDocs

/-!
What the template of an operation point (report/templates/op.tex) takes from the results, transcribed
by tools/gen_template.py, and how it shows the numbers.
-/
set_option autoImplicit false
namespace Emva
namespace Report
open Results

/-- `op.results.<section>.<attribute>.<key>` in report/templates/op.tex, in order of appearance (lines
%d-%d). -/
def templateRefs : List (Str × Str × Str) := [
''' % (refs[0][0], refs[-1][0]))
    f.write(',\n'.join('  /- line %d: %s.%s.%s -/\n  (%s, %s, %s)' % (i, s, a, k, chars(s), chars(a), chars(k))
                       for i, s, a, k in refs))
    f.write(''']

/-- `op.plots.<class>` in report/templates/op.tex (lines %d-%d). -/
def templatePlots : List Str := [
''' % (plots[0][0], plots[-1][0]))
    f.write(',\n'.join('  %s.toList' % lit(c) for _, c in plots))
    f.write(''']

/-- A number in the template: `'%.<digits>f' % value`, or `value|missingnumber(<digits>)`. -/
structure Cell where
  attr : Attr
  digits : ℕ
  filtered : Bool

/-- The numbers of report/templates/op.tex (lines as above). -/
def templateCells : List Cell := [
''')
    f.write(',\n'.join('  ⟨.%s, %d, %s⟩' % (a, d, 'true' if b else 'false') for _, a, d, b in cells))
    f.write(''']

/-- `getattr(results, name)`: the attribute of a name. -/
def attrOfName : List (String × Attr) := [
''')
    body = open(OUT + 'Attrs.lean').read()
    body = body[body.index('inductive Attr'):body.index('deriving DecidableEq')]
    f.write(',\n'.join('  (%s, .%s)' % (lit(a), a) for a in re.findall(r'\| (\w+)', body)))
    f.write(''']

/-- The value of an attribute as the template sees it (`linearity` and the histograms are dictionaries,
which the template does not show). -/
def asRVal : Value → Option (RVal ℝ)
  | .int n => some (.int n)
  | .num x => some (ofNum x)
  | .lin _ => none
  | .hist _ => none

/-- A number of the template. -/
noncomputable def Cell.render (c : Cell) (v : RVal ℝ) : Except PyErr Str :=
  if c.filtered then missingNumber v c.digits else percentF c.digits v

end Report
end Emva
''')
print(len(rows), len(refs), len(cells), len(plots))
