#!/usr/bin/env python3
"""Writes lean/Verif/Kernel/Tab*.lean from the tables of collision efficiencies of /repo.
One decimal number per row of the lower triangular matrix: 7 digits per entry, in units of 1e-6."""
import os
from decimal import Decimal
SRC = '/repo/src/detail/kernel_definitions/%s_efficiencies.hpp'
OUT = os.path.join(os.path.dirname(os.path.abspath(__file__)), '../lean/Verif/Kernel/Tab%s.lean')
NAMES = {'hall': 'Hall', 'hall_davis_no_waals': 'HallDavis', 'hall_pinsky_1000mb_grav': 'HallPinskyGrav',
         'hall_pinsky_cumulonimbus': 'HallPinskyCu', 'hall_pinsky_stratocumulus': 'HallPinskySc',
         'vohl_davis_no_waals': 'VohlDavis'}
for name, mod in NAMES.items():
    s = open(SRC % name).read()
    pre, b = s.split('arr[] = {')
    first = pre.count('\n') + 2
    b = b[:b.index('}')]
    last = first + b.count('\n') - 1
    vals = [Decimal(x.strip()) for x in b.replace('\n', ' ').split(',')]
    ints = [v * 10**6 for v in vals]
    assert all(v == int(v) and 0 <= v < 10**7 for v in ints), name
    ints = [int(v) for v in ints]
    rows, k = [], 0
    while k < len(ints):
        n = len(rows) + 1
        rows.append(ints[k:k + n])
        k += n
    assert all(len(r) == i + 1 for i, r in enumerate(rows)), 'last row is incomplete'
    with open(OUT % mod, 'w') as f:
        f.write('import Mathlib.Data.Nat.Notation\n')
        f.write('/- generated by tools/gentables.py -/\n')
        f.write('namespace LCP.Kernel\n\n')
        f.write(f'/-- {name}_efficiencies (src/detail/kernel_definitions/{name}_efficiencies.hpp:{first}-{last}), one number per row\n'
                'of the lower triangular matrix, seven digits per entry, in units of 1e-6; the first digit of each\n'
                'number is a 1 put in front. -/\n')
        f.write(f'def rows{mod} : List ℕ := [\n')
        f.write(',\n'.join('  1_' + '_'.join('%07d' % v for v in r) for r in rows))
        f.write(']\n\nend LCP.Kernel\n')
    print(mod, len(vals), len(rows))
