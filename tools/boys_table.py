#!/usr/bin/env python3
"""Write lean/Verif/BoysTable.lean from boys_shortgrid.c and boys_longfac.h of /repo.

Every decimal literal is copied exactly: an entry of the grid is printed with one digit before and
34 digits after the decimal point (the point itself is left out), a factor is multiplied by 10^18.
"""
import re
import sys
from decimal import Decimal, getcontext

getcontext().prec = 100
src = sys.argv[1] if len(sys.argv) > 1 else "/repo/skel/simint/boys"
out = sys.argv[2] if len(sys.argv) > 2 else "/verif/lean/Verif/BoysTable.lean"

text = open(src + "/boys_shortgrid.c").read()
text = text[text.index("boys_shortgrid["):]
rows = re.findall(r"/\* x = (\S+)\s*\*/\s*\{(.*?)\}", text)


def scaled(lit, e):
    v = Decimal(lit.strip()).scaleb(e)
    n = int(v)
    assert v == n, lit
    return n


lines = []
for k, (x, row) in enumerate(rows):
    assert Decimal(x) == Decimal(k) / 10
    ents = [e for e in row.split(",") if e.strip()]
    assert len(ents) == 32
    digs = ["%035d" % scaled(e, 34) for e in ents]
    assert all(len(d) == 35 for d in digs)
    lines.append("  " + "_".join(digs))
assert len(rows) == 366

ltext = open(src + "/boys_longfac.h").read()
facs = re.findall(r"/\* n =\s*(\d+)\s*\*/\s*(\S+)\s*,", ltext)
assert [int(n) for n, _ in facs] == list(range(32))
flines = ["  %d" % scaled(f, 18) for _, f in facs]

with open(out, "w") as f:
    f.write("""/-!
# Tables of the Boys function

Copy of the tables `boys_shortgrid` (skel/simint/boys/boys_shortgrid.c:14-382) and `boys_longfac`
(skel/simint/boys/boys_longfac.h:15-49), written by tools/boys_table.py.  The literals are copied
exactly; the C compiler rounds each of them to a double.
-/

set_option autoImplicit false

namespace Simint

/-- Rows of `boys_shortgrid`.  A row has 32 groups of 35 digits, one group for each entry: one digit
before the decimal point and 34 digits after it. -/
def boysGridRows : List Nat := [
""")
    f.write(",\n".join(lines))
    f.write("""]

/-- `boys_longfac`, every entry multiplied by 10^18. -/
def boysLongfacN : List Nat := [
""")
    f.write(",\n".join(flines))
    f.write("]\n\nend Simint\n")
