#!/usr/bin/env python3
"""Transcribe the label tables of PRIMME's parameter structures into Lean.

Reads (as text) include/primme_eigs.h, include/primme_svds.h, src/eigs/primme_interface.c and
src/svds/primme_svds_interface.c of the repository given as argument (default /repo) and writes
  lean/Verif/Spec/EigsLabels.lean, lean/Verif/Spec/SvdsLabels.lean   (from the headers)
  lean/Verif/Model/EigsTables.lean, lean/Verif/Model/SvdsTables.lean (from the .c files)
"""
import re, sys, os
repo = sys.argv[1] if len(sys.argv) > 1 else '/repo'
out = os.path.join(os.path.dirname(os.path.dirname(os.path.abspath(__file__))), 'lean', 'Verif')

def strip(s):
    s = re.sub(r'/\*.*?\*/', lambda m: re.sub(r'[^\n]', ' ', m.group(0)), s, flags=re.S)
    return re.sub(r'//[^\n]*', '', s)

def read(p): return strip(open(os.path.join(repo, p)).read())

def struct(src, name):
    m = re.search(r'typedef struct %s \{(.*?)\n\} %s;' % (name, name), src, re.S)
    return m.group(1)

ENUMS = ['primme_op_datatype','primme_target','primme_orth','primme_init','primme_projection',
         'primme_convergencetest','primme_svds_target','primme_svds_operator']

def members(src, name, prefix=''):
    res = []
    for decl in struct(src, name).split(';'):
        d = ' '.join(decl.split())
        if not d: continue
        m = re.match(r'void \(\*(\w+)\)', d)
        if m: res.append((prefix + m.group(1), 'ptr')); continue
        m = re.match(r'(?:struct )?(projection_params|restarting_params|correction_params|primme_stats|JD_projectors|primme_svds_stats) (\w+)$', d)
        if m: res += members(src, m.group(1), prefix + m.group(2) + '_'); continue
        m = re.match(r'primme_params (\w+)$', d)
        if m: res.append((prefix + m.group(1), 'sub')); continue
        m = re.match(r'PRIMME_INT (\w+)\[4\]$', d)
        if m: res.append((prefix + m.group(1), 'seed')); continue
        m = re.match(r'PRIMME_INT (\w+)$', d)
        if m: res.append((prefix + m.group(1), 'long')); continue
        m = re.match(r'int (\w+)$', d)
        if m: res.append((prefix + m.group(1), 'int')); continue
        m = re.match(r'double (\w+)$', d)
        if m: res.append((prefix + m.group(1), 'dbl')); continue
        m = re.match(r'(?:void|double|FILE|const char) \*(\w+)$', d)
        if m: res.append((prefix + m.group(1), 'ptr')); continue
        m = re.match(r'(\w+) (\w+)$', d)
        if m and m.group(1) in ENUMS: res.append((prefix + m.group(2), 'enum')); continue
        raise SystemExit('cannot parse member: ' + d)
    return res

def func(src, name):
    i = src.index(name + '(')
    # the definition is the occurrence followed by '{' before ';'
    for m in re.finditer(r'\b%s\(' % name, src):
        j = m.start(); k1 = src.find('{', j); k2 = src.find(';', j)
        if k1 != -1 and (k2 == -1 or k1 < k2) and re.search(r'int\s+$', src[:j][-12:]):
            depth = 0
            for t in range(k1, len(src)):
                if src[t] == '{': depth += 1
                elif src[t] == '}':
                    depth -= 1
                    if depth == 0:
                        return src[k1:t+1], src[:j].count('\n') + 1, src[:t].count('\n') + 1
    raise SystemExit('function not found ' + name)

def cases(body, pre):
    """list of ([labels], code) of the switch in body"""
    i = body.index('switch')
    sw = body[i:]
    parts = re.split(r'\b(case\s+%s(\w+)\s*:|default\s*:)' % pre, sw)
    res, pend = [], []
    k = 1
    while k < len(parts):
        head, lab, code = parts[k], parts[k+1], parts[k+2]
        if head.startswith('default'): break
        pend.append(lab)
        if code.strip():
            res.append((pend, ' '.join(code.split()))); pend = []
        k += 3
    return res

def leanlist(xs, per=1, ind='   '):
    return '[\n' + ',\n'.join(ind + x for x in xs) + ']'

def gen(ns, title, hsrc, hfile, sname, lpre, csrc, cfile, var, fns, consts_fns, svds):
    mem = members(hsrc, sname)
    kind = dict(mem)
    ints = [m for m, k in mem if k in ('long', 'int', 'enum')]
    dbls = [m for m, k in mem if k == 'dbl']
    ptrs = [m for m, k in mem if k == 'ptr']
    subs = [m for m, k in mem if k == 'sub']
    labels = re.findall(r'%s(\w+)\s*=\s*(\d+)' % lpre, hsrc)
    num = {a: int(b) for a, b in labels}
    hl = hsrc.index('typedef struct %s {' % sname)
    line0 = hsrc[:hl].count('\n') + 1
    ll0 = hsrc[:hsrc.index(lpre + 'invalid_label')].count('\n') + 1
    ll1 = ll0 + len(labels) - 1
    def ref(m):
        k = kind[m]
        if k in ('long', 'int', 'enum'): return f'.i .{m}'
        if k == 'dbl': return f'.d .{m}'
        if k == 'ptr': return f'.p .{m}'
        if k == 'seed': return '.seed'
        return f'.sub {subs.index(m)}'
    spec = f'''import Verif.Spec.Members

/-!
# {title}: members and labels, from the public header

Transcribed by tools/gen_tables.py from {hfile} (structure at line {line0}, labels at lines
{ll0}-{ll1}).  The label `{lpre}a_b` names the member `a.b` of the structure.
-/

namespace Verif.{ns}
open Verif.Members

/-- Members with an integral C type. -/
inductive IF where
  | {' | '.join(ints)}
  deriving DecidableEq, Repr

/-- Members of type `double`. -/
inductive DF where
  | {' | '.join(dbls)}
  deriving DecidableEq, Repr

/-- Members that are pointers. -/
inductive PF where
  | {' | '.join(ptrs)}
  deriving DecidableEq, Repr

/-- C type of the integral members. -/
def ctype : IF → CType
''' + ''.join(f'  | .{m} => .{kind[m]}\n' for m in ints).replace('=> .int', '=> .cint').replace('=> .enum', '=> .cenum').replace('=> .long', '=> .clong') + f'''
/-- The published labels (except the invalid label 0) with the member they name. -/
def labels : List (Int × String × Member IF DF PF) := ''' + leanlist(f'({n}, "{a}", {ref(a)})' for a, n in labels if a != 'invalid_label') + f'''

/-- The public name of each label: the label's text without the word `Params` (this is the spelling
used by the Matlab and Python interfaces). -/
def apiNames : List (Int × String) := ''' + leanlist(f'({n}, "{a.replace("Params", "")}")' for a, n in labels if a != 'invalid_label') + f'''

end Verif.{ns}
'''
    open(f'{out}/Spec/{ns}Labels.lean', 'w').write(spec)
    # ---- .c tables
    gbody, g0, g1 = func(csrc, fns['get'])
    sbody, s0, s1 = func(csrc, fns['set'])
    ibody, i0, i1 = func(csrc, fns['info'])
    def path(s): return s.replace('.', '_')
    gets = []
    for labs, code in cases(gbody, lpre):
        for lab in labs:
            m = re.match(r'\*\((\w+)\s*\**\)value = %s->([\w.]+); break;$' % var, code.replace('(FILE**)', '(FILEp*)'))
            if m:
                t, f = m.group(1), path(m.group(2))
                e = {'PRIMME_INT': f'.int .{f}', 'double': f'.dbl .{f}', 'ptr_v': f'.ptr .{f}', 'FILEp': f'.ptr .{f}', 'str_v': f'.ptr .{f}'}[t]
            elif re.match(r'\*\(ptr_v\*\)value = &%s->(\w+); break;$' % var, code):
                f = re.match(r'\*\(ptr_v\*\)value = &%s->(\w+); break;$' % var, code).group(1)
                e = f'.sub {subs.index(f)}'
            elif re.match(r'v->\w+ = %s->(\w+); break;$' % var, code):
                e = '.ptr .' + re.match(r'v->\w+ = %s->(\w+); break;$' % var, code).group(1)
            elif 'iseed' in code and '((PRIMME_INT*)value)[i] = %s->iseed[i]' % var in code: e = '.seed'
            else: raise SystemExit('get: ' + lab + ': ' + code)
            gets.append((num[lab], lab, e))
    sets = []
    for labs, code in cases(sbody, lpre):
        for lab in labs:
            chk = 'if (*(PRIMME_INT*)value > INT_MAX) return 1; else '
            c = code
            checked = c.startswith(chk)
            if checked: c = c[len(chk):]
            m = re.match(r'%s->([\w.]+) = (.*); break;$' % var, c)
            if c.startswith('return 1;'): e = '.reject'
            elif m:
                f, rhs = path(m.group(1)), m.group(2)
                if rhs == '*(PRIMME_INT*)value': assert not checked; e = f'.long .{f}'
                elif rhs == '(int)*(PRIMME_INT*)value': assert checked, lab; e = f'.intChecked .{f}'
                elif re.match(r'\((primme_\w+)\)\*\(PRIMME_INT\*\)value$', rhs): e = f'.enum .{f}'
                elif rhs == '*(double*)value': e = f'.dbl .{f}'
                elif re.match(r'v\.\w+$', rhs) or re.match(r'\((ptr_v|double\*|FILE\*|str_v)\)value$', rhs): e = f'.ptr .{f}'
                else: raise SystemExit('set: ' + lab + ': ' + code)
            elif '%s->iseed[i] = ((PRIMME_INT*)value)[i]' % var in c: e = '.seed'
            else: raise SystemExit('set: ' + lab + ': ' + code)
            sets.append((num[lab], lab, e))
    # names
    names = []
    for m in re.finditer(r'IF_IS\(\s*(\w+)\s*(?:,\s*(\w+)\s*)?\);', ibody):
        names.append((m.group(1), num[m.group(2) or m.group(1)]))
    types = []
    for labs, code in cases(ibody, lpre):
        t = re.search(r'\*type = primme_(\w+);', code).group(1)
        a = re.search(r'\*arity = (\d+);', code).group(1)
        for lab in labs: types.append((num[lab], lab, f'(.{t}, {a})'))
    # enum values
    def enumvals(src):
        vals = {}
        for m in re.finditer(r'typedef enum \{(.*?)\} (\w+);', src, re.S):
            k = 0
            for it in m.group(1).split(','):
                it = it.strip()
                if not it: continue
                if '=' in it: a, b = it.split('='); k = int(b); it = a.strip()
                vals[it] = k; k += 1
        return vals
    vals = enumvals(hsrc_all)
    consts = []
    for fsrc, fn in consts_fns:
        b, c0, c1 = func(fsrc, fn)
        for m in re.finditer(r'IF_IS\((\w+)\);', b): consts.append((m.group(1), vals[m.group(1)]))
    ebody, e0, e1 = func(csrc, fns['enum'])
    enums = []
    for labs, code in cases(ebody, lpre):
        its = [(x, vals[x]) for x in re.findall(r'IF_IS\((\w+)\);', code)]
        for lab in labs: enums.append((num[lab], lab, its))
    model = f'''import Verif.Model.Members
import Verif.Spec.{ns}Labels

/-!
# {title}: the label tables of the implementation

Transcribed by tools/gen_tables.py from {cfile}; one entry per `case` (or `IF_IS`) of the C code, in order.
-/

namespace Verif.{ns}
open Verif.Members

/-- The cases of `{fns['get']}`, {cfile}:{g0}-{g1}. -/
def getTable : List (Int × GetEntry IF DF PF) := ''' + leanlist(f'({n}, {e})' for n, l, e in gets) + f'''

/-- The cases of `{fns['set']}`, {cfile}:{s0}-{s1}. -/
def setTable : List (Int × SetEntry IF DF PF) := ''' + leanlist(f'({n}, {e})' for n, l, e in sets) + f'''

/-- The `IF_IS` lines of `{fns['info']}`, {cfile}:{i0}-{i1}. -/
def infoNames : List (String × Int) := ''' + leanlist(f'("{a}", {n})' for a, n in names) + f'''

/-- The `switch` of `{fns['info']}`, {cfile}:{i0}-{i1}: type and arity. -/
def infoTypes : List (Int × PType × Nat) := ''' + leanlist(f'({n}, {e})' for n, l, e in types) + f'''

/-- The `IF_IS` lines of `{consts_fns[0][1]}`{' followed by those of `' + consts_fns[1][1] + '`' if len(consts_fns) > 1 else ''}. -/
def constTable : List (String × Int) := ''' + leanlist(f'("{a}", {n})' for a, n in consts) + f'''

/-- The `switch` of `{fns['enum']}`, {cfile}:{e0}-{e1}. -/
def enumTable : List (Int × List (String × Int)) := ''' + leanlist(f'({n}, [' + ', '.join(f'("{a}", {v})' for a, v in its) + '])' for n, l, its in enums) + f'''

end Verif.{ns}
'''
    open(f'{out}/Model/{ns}Tables.lean', 'w').write(model)

he, hs = read('include/primme_eigs.h'), read('include/primme_svds.h')
hsrc_all = he + hs
ce, cs = read('src/eigs/primme_interface.c'), read('src/svds/primme_svds_interface.c')
gen('Eigs', 'primme_params', he, 'include/primme_eigs.h', 'primme_params', 'PRIMME_', ce, 'src/eigs/primme_interface.c', 'primme',
    dict(get='primme_get_member', set='primme_set_member', info='primme_member_info', enum='primme_enum_member_info'),
    [(ce, 'primme_constant_info')], False)
gen('Svds', 'primme_svds_params', hs, 'include/primme_svds.h', 'primme_svds_params', 'PRIMME_SVDS_', cs, 'src/svds/primme_svds_interface.c', 'primme_svds',
    dict(get='primme_svds_get_member', set='primme_svds_set_member', info='primme_svds_member_info', enum='primme_svds_enum_member_info'),
    [(cs, 'primme_svds_constant_info'), (ce, 'primme_constant_info')], True)
