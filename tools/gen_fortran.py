#!/usr/bin/env python3
"""Transcribe the enumerators of the C headers and the constants of the Fortran headers into Lean.

Reads (as text) the headers in include/ of the repository given as argument (default /repo) and writes
  lean/Verif/Spec/Enumerators.lean     (from primme_eigs.h and primme_svds.h)
  lean/Verif/Model/FortranTables.lean  (from primme_{eigs,svds}_f77.h and primme_{eigs,svds}_f90.inc)
"""
import re, sys, os
repo = sys.argv[1] if len(sys.argv) > 1 else '/repo'
out = os.path.join(os.path.dirname(os.path.dirname(os.path.abspath(__file__))), 'lean', 'Verif')

def enums(f):
    s = open(os.path.join(repo, 'include', f)).read()
    s = re.sub(r'/\*.*?\*/', '', s, flags=re.S)
    s = re.sub(r'//[^\n]*', '', s)
    res = []
    for m in re.finditer(r'typedef enum\s*\w*\s*\{(.*?)\}\s*(\w+)', s, flags=re.S):
        v = -1
        for it in m.group(1).split(','):
            it = it.strip()
            if not it: continue
            if '=' in it:
                n, x = [z.strip() for z in it.split('=')]
                v = int(x, 0)
            else:
                n = it; v += 1
            res.append((n, v))
    return res

def fortran(f):
    s = open(os.path.join(repo, 'include', f)).read()
    s = '\n'.join(l for l in s.split('\n') if not re.match(r'[C!]', l))
    return [(n, int(v)) for n, v in re.findall(r'(\w+)\s*=\s*(-?\d+)', s)]

def table(name, doc, l):
    return '/-- %s -/\ndef %s : List (String × Int) := [\n%s]\n' % (
        doc, name, ',\n'.join('   ("%s", %d)' % e for e in l))

with open(os.path.join(out, 'Spec', 'Enumerators.lean'), 'w') as f:
    f.write('''/-!
# The enumerators of the public C headers

Transcribed by tools/gen_fortran.py; every enumerator of every `typedef enum`, with its value.
-/

namespace Verif.Spec

''')
    f.write(table('eigsEnumerators', 'include/primme_eigs.h.', enums('primme_eigs.h')) + '\n')
    f.write(table('svdsEnumerators', 'include/primme_svds.h.', enums('primme_svds.h')) + '\n')
    f.write('end Verif.Spec\n')

with open(os.path.join(out, 'Model', 'FortranTables.lean'), 'w') as f:
    f.write('''/-!
# The constants of the Fortran headers

Transcribed by tools/gen_fortran.py; every constant given a value, in order.
-/

namespace Verif.Fortran

''')
    for n, h in [('f77Eigs', 'primme_eigs_f77.h'), ('f90Eigs', 'primme_eigs_f90.inc'),
                 ('f77Svds', 'primme_svds_f77.h'), ('f90Svds', 'primme_svds_f90.inc')]:
        f.write(table(n, 'include/%s.' % h, fortran(h)) + '\n')
    f.write('end Verif.Fortran\n')
