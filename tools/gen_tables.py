#!/usr/bin/env python3
"""Transcribe the constant tables of /repo into Lean modules under lean/Verif/Model/Tables.

Numbers are copied digit by digit; nothing is rounded.
Usage: python3 tools/gen_tables.py   (from /verif)
"""
import re, os
from decimal import Decimal

REPO = '/repo'
OUT = os.path.join(os.path.dirname(os.path.abspath(__file__)), '../lean/Verif/Model/Tables')
os.makedirs(OUT, exist_ok=True)

def rd(p):
    return open(os.path.join(REPO, p)).read()

def strip(s):
    s = re.sub(r'/\*.*?\*/', ' ', s, flags=re.S)
    return re.sub(r'//[^\n]*', '', s)

def lineof(text, pos):
    return text.count('\n', 0, pos) + 1

def find(text, pat):
    """return (body, first line, last line) of the brace initialiser after regex pat"""
    m = re.search(pat, text)
    assert m, pat
    i = text.index('{', m.end() - 1)
    d = 0
    j = i
    while True:
        if text[j] == '{': d += 1
        if text[j] == '}':
            d -= 1
            if d == 0: break
        j += 1
    return text[i:j+1], lineof(text, m.start()), lineof(text, j)

NUM = r'[-+]?(?:\d+\.?\d*|\.\d+)(?:[eE][-+]?\d+)?'

def nums(body):
    return re.findall(NUM, strip(body))

def dec(s):
    """(m, e) with value m*10^-e"""
    d = Decimal(s)
    sign, digits, exp = d.as_tuple()
    m = int(''.join(map(str, digits)))
    if sign: m = -m
    if exp > 0:
        return m * 10**exp, 0
    return m, -exp

def lit(s):
    m, e = dec(s)
    return f'⟨{m}, {e}⟩'

def wrap(items, w=96):
    lines, cur = [], '  '
    for k, it in enumerate(items):
        t = it + (', ' if k + 1 < len(items) else '')
        if len(cur) + len(t) > w:
            lines.append(cur.rstrip()); cur = '  '
        cur += t
    lines.append(cur.rstrip())
    return '\n'.join(lines)

HEAD = '''import Verif.Model.Scalar

/-!
{doc}

Transcribed by `tools/gen_tables.py`; an entry `⟨m, e⟩` is the decimal `m * 10^(-e)`.
-/

namespace Catima
'''

def module(name, doc, defs, imports=''):
    with open(os.path.join(OUT, name + '.lean'), 'w') as f:
        f.write(HEAD.format(doc=doc))
        for d in defs: f.write('\n' + d + '\n')
        f.write('\nend Catima\n')

def list1(name, src, pat, n=None):
    t = rd(src)
    body, l0, l1 = find(t, pat)
    v = nums(body)
    if n: assert len(v) <= n, (name, len(v))
    if n and len(v) < n:
        # C++ zero-initialises the missing tail
        print('note', name, len(v), '<', n)
        v += ['0'] * (n - len(v))
    return f'/-- {src}:{l0}-{l1} -/\ndef {name} : List Dec := [\n{wrap([lit(x) for x in v])}]'

def list2(name, src, pat, cols, rows):
    t = rd(src)
    body, l0, l1 = find(t, pat)
    v = nums(body)
    assert len(v) == cols * rows, (name, len(v))
    rs = [v[i*cols:(i+1)*cols] for i in range(rows)]
    s = ',\n'.join('  [' + ', '.join(lit(x) for x in r) + ']' for r in rs)
    return f'/-- {src}:{l0}-{l1} -/\ndef {name} : List (List Dec) := [\n{s}]'

# ---------------------------------------------------------------- nucdata
module('Nucdata', '# Element data (`/repo/src/nucdata.cpp`)', [
    list1('element_atomic_weights', 'src/nucdata.cpp', r'double element_atomic_weights\[110\]=\{', 110),
    list1('element_densities', 'src/nucdata.cpp', r'double element_densities\[99\]=\{', 99)])

# ---------------------------------------------------------------- ionisation potentials
module('Ipot', '# Ionisation potentials (`/repo/include/catima/data_ionisation_potential.h`)', [
    list1('ionisation_potentials_z', 'include/catima/data_ionisation_potential.h',
          r'double ionisation_potentials_z\[IPOT_ZMAX\+1\] = \{', 121)])

# ---------------------------------------------------------------- density effect
module('DensityEffect', '# Density effect parameters (`/repo/include/catima/data_atima.h`)', [
    list1('density_effect_' + k, 'include/catima/data_atima.h', r'const double %s\[97\]= \{' % k, 97)
    for k in ['x0', 'x1', 'a', 'c', 'm', 'del_0']])

# ---------------------------------------------------------------- srim
srim = rd('src/srim.cpp')
defs = []
for name, cols in [('pse_95', 8), ('proton_stopping_coef', 8)]:
    defs.append(list2(name, 'src/srim.cpp', name + r'\s*\[92\]\[8\]\s*=\s*\{', cols, 92))
for name in ['atima_lambda_screening', 'atima_vfermi']:
    defs.append(list1(name, 'src/srim.cpp', name + r'\s*\[92\]\s*=\s*\{', 92))
module('Srim', '# Low-energy stopping tables (`/repo/src/srim.cpp`)', defs)

# ---------------------------------------------------------------- abundances
ab = 'src/abundance_database.cpp'
def listInt(name, pat):
    t = rd(ab)
    body, l0, l1 = find(t, pat)
    v = nums(body)
    return f'/-- {ab}:{l0}-{l1} -/\ndef {name} : List Nat := [\n{wrap(v)}]'
module('Abundance', '# Natural isotope tables (`/repo/src/abundance_database.cpp`)', [
    listInt('abundance_z_index', r'abundance_z_index\[\] = \{'),
    listInt('isotopes_a', r'isotopes_a\[\] = \{'),
    list1('isotopes_abundance', ab, r'isotopes_abundance\[\] = \{')])

# ---------------------------------------------------------------- quadrature
gl = rd('include/catima/glq_integrator.h')
defs = []
orders = [int(x) for x in re.findall(r'struct GL_data<(\d+)>', gl)]
for o in orders:
    m = re.search(r'struct GL_data<%d>\s*\{' % o, gl)
    seg_start = m.start()
    nxt = re.search(r'template<>', gl[seg_start+5:])
    seg_end = seg_start + 5 + nxt.start() if nxt else len(gl)
    seg = gl[seg_start:seg_end]
    res = {}
    for k in ['x', 'w']:
        mm = re.search(r'_%s\s*=\s*\{' % k, seg)
        b = seg[mm.end()-1: seg.index('}', mm.end())+1]
        res[k] = nums(b)
    assert len(res['x']) == len(res['w']) == (o + 1)//2, (o, len(res['x']), len(res['w']))
    l0, l1 = lineof(gl, seg_start), lineof(gl, seg_start) + seg.rstrip().count('\n')
    defs.append(f'/-- include/catima/glq_integrator.h:{l0}-{l1} -/\ndef GL_data{o} : GLData where\n  order := {o}\n'
      f'  x := [{", ".join(lit(x) for x in res["x"])}]\n  w := [{", ".join(lit(x) for x in res["w"])}]')
gk = rd('include/catima/gkq_integrator.h')
gorders = [int(x) for x in re.findall(r'struct GK_data<(\d+)>', gk)]
for o in gorders:
    m = re.search(r'struct GK_data<%d>\s*\{' % o, gk)
    seg_start = m.start()
    nxt = re.search(r'template<>', gk[seg_start+5:])
    seg_end = seg_start + 5 + nxt.start() if nxt else len(gk)
    seg = gk[seg_start:seg_end]
    res = {}
    for k in ['x', 'w', 'wg']:
        mm = re.search(r'_%s\s*=\s*\{' % k, seg)
        b = seg[mm.end()-1: seg.index('}', mm.end())+1]
        res[k] = nums(b)
        size = int(re.search(r'std::array<double,(\d+)> const & %s\(\)' % k, seg).group(1))
        if len(res[k]) < size: res[k] += ['0'] * (size - len(res[k]))
        print('GK', o, k, len(res[k]), size)
    l0, l1 = lineof(gk, seg_start), lineof(gk, seg_start) + seg.rstrip().count('\n')
    defs.append(f'/-- include/catima/gkq_integrator.h:{l0}-{l1} -/\ndef GK_data{o} : GKData where\n  order := {o}\n'
      + '\n'.join(f'  {k} := [{", ".join(lit(x) for x in res[k])}]' for k in ['x', 'w', 'wg']))
pre = '''/-- `GL_data<order>`: positive abscissas and weights (glq_integrator.h:21-23). For odd
orders the first abscissa is 0. -/
structure GLData where
  order : Nat
  x : List Dec
  w : List Dec

/-- `GK_data<order>`: Kronrod abscissas and weights and the weights of the embedded
Gauss rule (gkq_integrator.h:26-28). -/
structure GKData where
  order : Nat
  x : List Dec
  w : List Dec
  wg : List Dec
'''
module('Quadrature', '# Quadrature nodes and weights', [pre] + defs)

# ---------------------------------------------------------------- Lindhard-Sorensen tables
ls = rd('include/catima/generated_LS_coeff.h')
names = re.findall(r'double (\w+)\[\]\[200\]\s*=', ls)
print(names)
E, B = 11, 40
OFF = 1 << (B - 1)
for nm in names:
    body, l0, l1 = find(ls, r'%s\[\]\[200\]\s*=\s*\{' % nm)
    v = nums(body)
    assert len(v) == 108 * 200, len(v)
    rows = []
    for r in range(108):
        x = 0
        for k in range(200):
            m, e = dec(v[r*200+k])
            while e > E:
                assert m % 10 == 0, (nm, v[r*200+k]); m //= 10; e -= 1
            iv = m * 10**(E-e) + OFF
            assert 0 <= iv < (1 << B)
            x |= iv << (B*k)
        rows.append(x)
    with open(os.path.join(OUT, f'LS_{nm}.lean'), 'w') as f:
        f.write(f'''/-!
# `{nm}` (`/repo/include/catima/generated_LS_coeff.h:{l0}-{l1}`)

108 rows of 200 entries (the number of rows is deduced by the compiler; `LS_MAX_Z` is 110, see `Verif.Model.Lindhard`).
Row `r` is one natural number holding 200 fields of {B} bits: field `j` is
`entry(r,j) * 10^{E} + 2^{B-1}`.  Transcribed by `tools/gen_tables.py` without rounding.
-/

namespace Catima

/-- generated_LS_coeff.h:{l0}-{l1}, packed -/
def {nm} : List Nat := [
''' + ',\n'.join('  ' + hex(x) for x in rows) + ']\n\nend Catima\n')

# ---------------------------------------------------------------- material database
md = rd('src/material_database.cpp')
mh = rd('include/catima/material_database.h')
enum = re.findall(r'(\w+)\s*=\s*(\d+)', mh[mh.index('enum class material'):mh.index('};')])
ids = {n: int(i) for n, i in enum}
rows = []
for m in re.finditer(r'case material::(\w+):\s*return Material\(\{(.*?)\},([-\d.eE+]+)\);', md):
    nm, comp, rho = m.groups()
    atoms = re.findall(r'\{([^{}]*)\}', comp)
    at = []
    for a in atoms:
        x, z, s = [q.strip() for q in a.split(',')]
        at.append(f'({lit(x)}, {int(z)}, {lit(s)})')
    rows.append((ids[nm], nm, at, rho, lineof(md, m.start())))
ncase = len(re.findall(r'case material::', md))
assert ncase == len(rows), (ncase, len(rows))
print('compounds', len(rows), 'enum', len(ids), set(ids) - set(r[1] for r in rows))
sw = md[md.index('switch'):]
l0, l1 = lineof(md, md.index('switch')), lineof(md, md.index('default:break'))
body = ',\n'.join(f'  ⟨{i}, "{nm}", [{", ".join(at)}], {lit(rho)}⟩' for i, nm, at, rho, ln in rows)
module('Compounds', '# Compound database (`/repo/src/material_database.cpp`, `/repo/include/catima/material_database.h`)', [
'''/-- One `case material::name: return Material({{a,z,stn},...},density);` -/
structure CompoundRow where
  id : Int
  name : String
  atoms : List (Dec × Int × Dec)
  density : Dec''',
f'/-- src/material_database.cpp:{l0}-{l1}, ids from include/catima/material_database.h:7-160 -/\ndef compound_rows : List CompoundRow := [\n{body}]',
'/-- The enumerators of `enum class material` (include/catima/material_database.h:7-160). -/\n'
'def material_enum : List (String × Int) := [\n' + wrap([f'("{n}", {i})' for n, i in enum]) + ']'])
