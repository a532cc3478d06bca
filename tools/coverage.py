"""Writes the table "function of /repo -> definitions of the model" into DESIGN.md.

The functions come from parsing /repo as text, the definitions from the citations in the comments of
the model.  A function without citing definition is listed with the reason given in REASONS."""
import ast, glob, os, re
here = os.path.dirname(os.path.abspath(__file__))
root = os.path.join(here, '..', 'lean', 'Verif')
REPO = '/repo/instancespace'
REASONS = {
 '_debug_print': 'prints', 'run_many_stages_parallel': 'raises `NotImplementedError`',
 '_format_stage_arguments': 'text of an error message', '_pilot_print': 'prints',
 '_display_overall_perf': 'prints', 'to_file': 'raises `NotImplementedError`',
 'save_to_mat': 'calls the exporter',
 '_write_cell_to_csv': 'never called', 'default': 'keyword defaults; see the option tables',
 '_inputs': 'the declared classes, transcribed as the tables of the default pipeline',
 '_outputs': 'the declared classes, transcribed as the tables of the default pipeline',
 '_run': 'passes the inputs on and wraps the results', '__init__': 'stores its arguments',
 'sift': 'calls `_run`', 'trace': 'stores its arguments and calls `_trace`',
 'prelim': 'stores its arguments and calls `_prelim`', 'do_filter': 'calls `filter_instance` and `compute_uniformity`',
 'save_to_csv': 'calls the exporter', 'save_for_web': 'calls the exporter',
 '_named_tuple_to_stage_arguments': 'the tables hold the (name, type) pairs it computes',
}
funcs = []
for p in sorted(glob.glob(REPO + '/**/*.py', recursive=True)):
    rel = os.path.relpath(p, REPO)
    if rel.startswith('scripting') or rel.endswith('__init__.py'): continue
    tree = ast.parse(open(p).read())
    def walk(node, pre):
        for c in getattr(node, 'body', []):
            if isinstance(c, ast.ClassDef): walk(c, pre + c.name + '.')
            elif isinstance(c, ast.FunctionDef):
                funcs.append((rel, c.lineno, c.end_lineno, pre + c.name)); walk(c, pre + c.name + '.')
    walk(tree, '')
byfile = {}
for f in funcs: byfile.setdefault(f[0], []).append(f)
def resolve(name):
    m = [f for f in byfile if f == name or f.endswith('/' + name)]
    if name == 'model.py': m = ['model.py']
    return m[0] if len(m) >= 1 else None
cites = {}
DECL = re.compile(r'^(?:@\[[^\]]*\]\s*)?(?:noncomputable |private |protected )*(?:def|structure|inductive|abbrev)\s+([^\s({\[:]+)')
FILE = re.compile(r'((?:[a-z_]+/)?_?[a-z_]+\.py)((?:[\s:,;()]|and|lines?|\d+|-)*)')
for p in sorted(glob.glob(os.path.join(root, '**', '*.lean'), recursive=True)):
    b = os.path.basename(p)
    if re.match(r'(Spec|Props|.*Lemmas)', b): continue
    area = os.path.relpath(p, root).split('/')[0].replace('.lean', '')
    doc, indoc = '', False
    for l in open(p).read().split('\n'):
        if l.startswith('/--'): indoc, doc = True, ''
        if indoc:
            doc += l + ' '
            if '-/' in l: indoc = False
            continue
        m = DECL.match(l)
        if m and doc:
            for f, rest in FILE.findall(doc):
                r = resolve(f)
                if not r: continue
                for a, z in re.findall(r'(\d+)(?:-(\d+))?', rest):
                    a, z = int(a), int(z or a)
                    for g in byfile.get(r, []):
                        if a <= g[2] and z >= g[1]:
                            cites.setdefault(g, {}).setdefault(f'{area}.{m[1]}', None)
        if l.strip() and not l.startswith(('open', 'variable', 'set_option', '@[')): doc = ''
rows, none = [], []
for f in funcs:
    n = f[3].split('.')[-1]
    d = list(cites.get(f, {}))
    if d: rows.append(f'| `{f[0]}` {f[1]}-{f[2]} | `{f[3]}` | ' + ', '.join(f'`{x}`' for x in d[:8]) + (f' and {len(d)-8} more' if len(d) > 8 else '') + ' |')
    else: none.append((f, REASONS.get(n, '')))
out = ['| Lines | Function | Definitions of the model citing them |', '|---|---|---|'] + rows
out += ['', 'Functions without a definition of their own:', '']
grp = {}
for f, why in none: grp.setdefault(why or 'not modelled', []).append(f)
for why, fs in grp.items():
    out.append(f'* {why}: ' + ', '.join(f'`{os.path.basename(f[0])}:{f[1]} {f[3]}`' for f in fs))
text = '\n'.join(out)
p = os.path.join(here, '..', 'DESIGN.md')
t = open(p).read()
A, B = '<!-- coverage -->', '<!-- end of coverage -->'
if A in t: t = t[:t.index(A)] + A + '\n' + text + '\n' + B + t[t.index(B) + len(B):]
open(p, 'w').write(t)
print(len(rows), 'covered,', len(none), 'not:')
for f, why in none: print('  ', f, why)
