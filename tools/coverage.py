"""Write COVERAGE.md: for every function of /repo/src/pymgrid the model definitions whose comments cite its lines."""
import ast, glob, os, re

SRC = '/repo/src/pymgrid/'
DECL = re.compile(r'^(?:@\[.*?\] )?(?:private |noncomputable )*(?:def|structure|inductive|abbrev|class|instance)\s+(\S+)', re.M)

cites = []
for f in sorted(glob.glob('lean/Verif/Model/*.lean')):
    s = open(f).read()
    docs = [(m.start(), m.end()) for m in re.finditer(r'/--.*?-/', s, re.S)]
    for c in re.finditer(r'([A-Za-z_/0-9]+\.py):([0-9]+(?:-[0-9]+)?(?:,[0-9]+(?:-[0-9]+)?)*)', s):
        # a citation in a doc comment belongs to the declaration that follows, others to the one they stand in
        doc = [e for b, e in docs if b <= c.start() < e]
        decl = DECL.search(s, doc[0]) if doc else ([m for m in DECL.finditer(s, 0, c.start())] or [None])[-1]
        if not decl:
            continue
        for r in c.group(2).split(','):
            lo, hi = (r.split('-') * 2)[:2]
            cites.append((c.group(1), int(lo), int(hi), os.path.basename(f)[:-5] + '.' + decl.group(1)))

def functions(node, prefix):
    for c in ast.iter_child_nodes(node):
        if isinstance(c, ast.FunctionDef):
            yield prefix + c.name, c.lineno, c.end_lineno
        elif isinstance(c, ast.ClassDef):
            yield from functions(c, prefix + c.name + '.')

out = ['# Which functions are modelled', '',
       'Written by `tools/coverage.py`: for every function of the package the definitions of `lean/Verif/Model` whose comments cite',
       'its lines. The reasons for the functions without a definition are given in DESIGN.md.', '']
total = covered = 0
for root, dirs, files in os.walk(SRC):
    dirs.sort()
    for fn in sorted(files):
        if not fn.endswith('.py'):
            continue
        path = os.path.join(root, fn)
        rel = path[len(SRC):]
        rows = []
        for name, lo, hi in functions(ast.parse(open(path).read()), ''):
            hits = []
            for file, a, b, d in cites:
                if (rel == file or rel.endswith('/' + file)) and a <= hi and b >= lo and d not in hits:
                    hits.append(d)
            total += 1
            covered += bool(hits)
            rows.append(f'| `{name}` | {lo}-{hi} | {", ".join(f"`{h}`" for h in hits) or "-"} |')
        if rows:
            out += [f'## {rel}', '', '| function | lines | definitions |', '|---|---|---|'] + rows + ['']
out.insert(5, f'{covered} of {total} functions are cited.\n')
open('COVERAGE.md', 'w').write('\n'.join(out))
print(covered, total)
