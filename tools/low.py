"""Writes the tables of lean/Verif/Proof/Low: the days of solar terms and new moons before 1961.

tools/low.json holds the lines found near the instants of the solar terms (microdays after J2000: A + B (y - c) with error R):
`acc` for `qiAccurate`, `qi` for `qiLow`.  The days are found here with the formulas of `lunar_python/util/ShouXingUtil.py`
written anew.  Nothing here is trusted: every number is checked by the kernel in the modules written."""
import json, math, os, re
from math import floor, cos, sin
HERE = os.path.dirname(os.path.abspath(__file__))
OUT = os.path.join(HERE, '..', 'lean', 'Verif', 'Proof', 'Low')
src = open(os.path.join(HERE, '..', 'lean', 'Verif', 'Model', 'ShouXingTables.lean')).read()
low = json.load(open(os.path.join(HERE, 'low.json')))
M, J, PI = 10**6, 2451545, math.pi

def code(name): return re.search(r'def %s : String :=\s*"([^"]*)"' % name, src).group(1)
o = '0' * 10; o2 = o + o
STEPS = [('J', '00'), ('I', '000'), ('H', '0000'), ('G', '00000')] + \
    [(c, '0' * (i + 1) + '2') for i, c in enumerate('tsrqponml')] + \
    [('k', '01'), ('j', '0101'), ('i', '001'), ('h', '001001')] + [(c, '0' * (i + 3) + '1') for i, c in enumerate('gfedcba')] + \
    [('A', o2 * 3), ('B', o2 * 2 + o), ('C', o2 * 2), ('D', o2 + o), ('E', o2), ('F', o)]
def decode(s):
    for a, b in STEPS: s = s.replace(a, b)
    return s
SB, QB = decode(code('SB_CODE')), decode(code('QB_CODE'))
def pack(s): return sum((0 if c == '0' else int(c)) << (2 * i) for i, c in enumerate(s))
def corr(t, i): return {'1': 1, '2': -1}.get(t[i:i + 1], 0)
def qiLow(w):
    v = 628.3319653318
    t = (w - 4.895062166) / v
    t -= (53 * t * t + 334116 * cos(4.67 + 628.307585 * t) + 2061 * cos(2.678 + 628.3076 * t) * t) / v / 10000000
    n = 48950621.66 + 6283319653.318 * t + 53 * t * t + 334166 * cos(4.669257 + 628.307585 * t) + 3489 * cos(4.6261 + 1256.61517 * t) + \
        2060.6 * cos(2.67823 + 628.307585 * t) * t - 994 - 834 * sin(2.1824 - 33.75705 * t)
    t -= (n / 10000000 - w) / 628.332 + (32 * (t + 1.8) * (t + 1.8) - 20) / 86400 / 36525
    return t * 36525 + 1 / 3
def shuoLow(w):
    v = 7771.37714500204
    t = (w + 1.08472) / v
    t -= (-0.0000331 * t * t + 0.10976 * cos(0.785 + 8328.6914 * t) + 0.02224 * cos(0.187 + 7214.0629 * t) - 0.03342 * cos(4.669 + 628.3076 * t)) / v + \
        (32 * (t + 1.8) * (t + 1.8) - 20) / 86400 / 36525
    return t * 36525 + 1 / 3

N0, N1, N2, N3 = -10000, -8484, -942, -894       # terms: mean from N0, qiLow from N1 to N2, qiHigh to N3
K0, K2, K3 = -5200, -495, -465                    # new moons: shuoLow from K0 to K2, shuoHigh to K3
def D(n):
    if n < N1: return (2188621191481000 + 15218437494 * (n + 17258) + 500000000) // 10**9 - J
    if n <= N2: return floor(qiLow(n * PI / 12) + .5) + corr(QB, n - N1)
    return floor(qiLow(n * PI / 12) + .5)
def N(k):
    d = floor(shuoLow(k * PI * 2) + .5)
    return d + corr(SB, k + 17080) if k <= K2 else d
terms = [D(n) + J - (15218425 * (n - N0) // 10**6 + 2299073) for n in range(N0, N3 + 1)]
moons = [N(k) + J - (295306 * (k - K0) // 10**4 + 2297990) for k in range(K0, K3 + 1)]
assert all(0 <= x < 16 for x in terms + moons), (min(terms), max(terms), min(moons), max(moons))
def nrow(r, c): return '⟨%d, %d, %d⟩' % (r[0] - r[1] * c + J * M, r[1], r[2])
def wrap(items, indent='  '):
    lines, cur = [], indent
    for i, x in enumerate(items):
        x = x + (', ' if i + 1 < len(items) else '')
        if len(cur) + len(x) > 118: lines.append(cur.rstrip()); cur = indent
        cur += x
    return '\n'.join(lines + [cur])
def write(name, text): open(os.path.join(OUT, name + '.lean'), 'w').write(text)

o = ['import Verif.Proof.Low.Check', '', '/-! # Days of solar terms and new moons before 1961, generated by `tools/low.py` -/', '', 'namespace Low', '',
     '/-- `__QB` (`lunar_python/util/ShouXingUtil.py` 358), packed -/', 'def qbPacked : ℕ := 0x%x' % pack(QB), '',
     '/-- `__SB` (`lunar_python/util/ShouXingUtil.py` 361), packed -/', 'def sbPacked : ℕ := 0x%x' % pack(SB), '',
     '/-- the days of the terms from %d on -/' % N0, 'def termDigits : ℕ := 0x%x' % sum(x << (4 * i) for i, x in enumerate(terms)), '',
     '/-- the days of the new moons from %d on -/' % K0, 'def moonDigits : ℕ := 0x%x' % sum(x << (4 * i) for i, x in enumerate(moons)), '']
for name, what in (('acc', 'instants of the solar terms'), ('qi', 'solar terms by the simpler series')):
    for i, (c, h, rows) in enumerate(low[name]):
        o += ['/-- %s, years about %d -/' % (what, c + 2000), 'def %s%d : List Row := [' % (name, i) + '\n' + wrap([nrow(r, c + 2000) for r in rows]) + ']', '']
o = [x.replace('List Row', 'List High.Row') for x in o] + ['end Low', '']
write('Data', '\n'.join(o))
print(len(QB), len(SB), len(terms), len(moons))

# ---- the checks ----
def chars(name): return 'def %s : List Char := [' % name + '\n' + wrap(["'%s'" % c for c in code({'qbList': 'QB_CODE', 'sbList': 'SB_CODE'}[name])]) + ']'
o = ['import Verif.Proof.Low.Days', '', '/-! # The corrections, unpacked, generated by `tools/low.py` -/', '', 'open Aff0 ShouXing', '', 'namespace Low', '']
for a, A in (('qb', 'QB'), ('sb', 'SB')):
    o += ['/-- the characters of `%s_CODE` -/' % A, chars(a + 'List'), '',
          'theorem %s_code : %s_CODE = String.ofList %sList := by set_option maxRecDepth 1000000 in rfl' % (a, A, a), '',
          'theorem %s_packed : packedCode %sList %sPacked = true := by decide +kernel' % (a, a, a), '',
          'theorem %s_get (i : ℕ) : correction %s i = corrOf (digit4 %sPacked i) := by' % (a, A, a),
          '  have e : %s = decode %sList := by unfold %s; rw [%s_code, String.toList_ofList]' % (A, a, A, a), '  rw [e]',
          '  exact packed_get (packedCode_mem %s_packed) i' % a, '']
write('Codes', '\n'.join(o + ['end Low', '']))

def runs(p, lo, hi, step, name):
    """theorems for the points lo .. hi - 1 in runs, and one for all of them"""
    out, parts, m = [], [], lo
    while m < hi:
        n = min(step, hi - m)
        out += ['theorem %s_%d : allFrom %s %d %d = true := by decide +kernel' % (name, m, p, n, m), '']
        parts.append((m, n)); m += n
    t, N = '%s_%d' % (name, parts[-1][0]), parts[-1][1]
    for m, n in reversed(parts[:-1]):
        t, N = 'allFrom_add (n := %d) (m\' := %d) (by norm_num) %s_%d (%s)' % (N + n, m + n, name, m, t), N + n
    return out + ['theorem %s : allFrom %s %d %d = true := %s' % (name, p, hi - lo, lo, t), '']

o = ['import Verif.Proof.Low.Days', '', '/-! # The days of the solar terms are right, generated by `tools/low.py` -/', '', 'open Aff0 ShouXing High', '', 'namespace Low', '']
for i, (c, h, rows) in enumerate(low['qi']):
    o += ['theorem qiOk%d : blockOk (lowOk (%d) %d 0) 0 (qi%d.map (rowAt (%d))) = true := by decide +kernel' % (i, c, h, i, c), '']
o += runs('pairStep', 0, 1516, 2000, 'pairs') + runs('(termStep qi0)', 1516, 5200, 1000, 'terms0') + runs('(termStep qi1)', 5200, 9059, 1000, 'terms1')
o += runs('termHigh', 9059, 9107, 100, 'terms2') + runs('moonHigh', 4705, 4736, 100, 'moons4')
write('Terms', '\n'.join(o + ['end Low', '']))
cut = [40, 1200, 2370, 3540, 4706]
for i in range(4):
    write('Moon%d' % i, '\n'.join(['import Verif.Proof.Low.Days', '', '/-! # The days of new moons are right, generated by `tools/low.py` -/', '', 'namespace Low', ''] +
        runs('moonStep', cut[i], cut[i + 1], 300, 'moons%d' % i) + ['end Low', '']))
def leaps(name):
    return [int(x) for x in re.search(r'def %s : List \S+ :=\s*\[([^\]]*)\]' % name, ly).group(1).replace('\n', ' ').split(',')]
ly = open(os.path.join(HERE, '..', 'lean', 'Verif', 'Model', 'Tables.lean')).read()
l11, l12 = [[y for y in leaps(n) if 1583 <= y < 1961] for n in ('LEAP_11', 'LEAP_12')]
o = ['import Verif.Proof.Low.Year', '', '/-! # The years from 1584 to 1961, generated by `tools/low.py` -/', '', 'open Aff0 ShouXing High', '', 'namespace Low', '']
for i, (c, h, rows) in enumerate(low['acc']):
    Y1 = max(1584, c + 2000 - h)
    Y2 = min(c + 2000 + h, 1962)
    o += ['theorem accOk%d : blockOk (accOk (%d) %d 10000000) 0 (acc%d.map (rowAt (%d))) = true := by decide +kernel' % (i, c, h, i, c), '',
          'theorem instOk%d : instOk acc%d %d %d = true := by decide +kernel' % (i, i, Y2 - Y1, Y1), '']
o += ['/-- the part of `LEAP_11` that matters -/', 'def l11 : List ℕ := [%s]' % ', '.join(map(str, l11)), '',
      '/-- the part of `LEAP_12` that matters -/', 'def l12 : List ℕ := [%s]' % ', '.join(map(str, l12)), '',
      'theorem leaps : leapOk l11 l12 377 1584 = true := by decide +kernel', '']
o += runs('(yearD l11 l12)', 1584, 1961, 400, 'years') + runs('termNear', 0, 9107, 10000, 'termNears') + runs('moonNear', 40, 4736, 10000, 'moonNears') + \
    runs('moonGap', 40, 4711, 10000, 'moonGaps')
o += ['theorem inst {M : Libm} (hM : M.Good) {Y : ℕ} (h1 : 1584 ≤ Y) (h2 : Y ≤ 1961) : Inst M Y := by']
for i, (c, h, rows) in enumerate(low['acc']):
    Y1 = max(1584, c + 2000 - h)
    Y2 = min(c + 2000 + h, 1962)
    o += ['  by_cases c%d : Y < %d' % (i, Y2), '  · exact instOk_mem hM accOk%d instOk%d (by norm_num) (by norm_num) (by omega) (by omega)' % (i, i)]
o += ['  omega', '']
write('Years', '\n'.join(o + ['end Low', '']))
