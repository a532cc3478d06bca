"""Lists the definitions of the model that carry no citation of a file and lines of /repo.

Definitions of the specification (Spec.lean), lemmas and properties are not the model."""
import glob, os, re
root = os.path.join(os.path.dirname(os.path.abspath(__file__)), '..', 'lean', 'Verif')
DECL = re.compile(r'^(?:@\[[^\]]*\]\s*)?(?:noncomputable |private |protected )*(def|structure|inductive|abbrev|class|instance)\s+(\S+)')
CITE = re.compile(r'\w+\.(?:py|pyi|toml|ipynb|md)[^\n]{0,4}(?::|,| lines? | ll?\. ?|\s)\s*\d+')
missing = total = 0
for p in sorted(glob.glob(os.path.join(root, '**', '*.lean'), recursive=True)):
    b = os.path.basename(p)
    if re.match(r'(Spec|Lemmas|Props|Example|Demo|.*Lemmas|Num)', b): continue
    lines = open(p).read().split('\n')
    doc, indoc, last = [], False, None
    for i, l in enumerate(lines):
        if l.startswith('/--'):
            indoc, doc = True, []
        if indoc:
            doc.append(l)
            if '-/' in l:
                indoc, last = False, i
            continue
        m = DECL.match(l)
        if m:
            total += 1
            d = '\n'.join(doc) if last is not None and last >= i - 2 else ''
            if not CITE.search(d):
                missing += 1
                print(f'{os.path.relpath(p, root)}:{i+1}: {m[1]} {m[2]}  -- {" ".join(d.split())[:150]}')
print(total, 'definitions,', missing, 'without citation')
