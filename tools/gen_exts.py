"""Generates lean/Verif/Model/Exts.lean from the text of /repo/vermin/detection.py (parsed, never executed)."""
import ast
t = ast.parse(open('/repo/vermin/detection.py').read())
for n in t.body:
    if isinstance(n, ast.Assign) and n.targets[0].id == "NOT_PY_CODE_EXTS":
        exts = [e.value for e in n.value.elts]
        lines = (n.lineno, n.end_lineno)
out = "/- Generated by tools/gen_exts.py from vermin/detection.py. -/\nnamespace Vermin\n\n"
out += "/-- `NOT_PY_CODE_EXTS` (detection.py:%d-%d), in order of appearance. -/\ndef notPyCodeExts : List String := [\n" % lines
row = "  "
rows = []
for i, e in enumerate(exts):
    item = '"%s"' % e + ("" if i == len(exts) - 1 else ", ")
    if len(row) + len(item) > 118:
        rows.append(row.rstrip()); row = "  "
    row += item
rows.append(row + "]")
out += "\n".join(rows) + "\n\nend Vermin\n"
open('/verif/lean/Verif/Model/Exts.lean', 'w').write(out)
