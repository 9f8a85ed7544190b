"""Writes the tables of lean/Verif/Proof/High from tools/high.json.

tools/high.json holds, for blocks of years and of months, the lines found near the instants of the solar terms and new
moons (microdays after J2000: A + B (y - c) with error R), and for the years where the lines do not decide the matter
the days needed.  Nothing here is trusted: every number is checked by the kernel in the modules written."""
import json, os, re
HERE = os.path.dirname(os.path.abspath(__file__))
OUT = os.path.join(HERE, '..', 'lean', 'Verif', 'Proof', 'High')
d = json.load(open(os.path.join(HERE, 'high.json')))
sun, moon, exc = d['sun'], d['moon'], {e[0]: e for e in d['exc']}
M, J = 10**6, 2451545
FIRST, LAST = 1961, 9998
src = open(os.path.join(HERE, '..', 'lean', 'Verif', 'Model', 'Tables.lean')).read()
def leap(n):
    m = re.search(r'def LEAP_%d[^\[]*\[([^\]]*)\]' % n, src)
    return [int(x) for x in m.group(1).replace('\n', ' ').split(',')]
L11, L12 = leap(11), leap(12)
def nrow(r, c): return '⟨%d, %d, %d⟩' % (r[0] - r[1] * c + J * M, r[1], r[2])
def wrap(items, indent='  '):
    lines, cur = [], indent
    for i, x in enumerate(items):
        x = x + (', ' if i + 1 < len(items) else '')
        if len(cur) + len(x) > 118: lines.append(cur.rstrip()); cur = indent
        cur += x
    return '\n'.join(lines + [cur])
def write(name, text): open(os.path.join(OUT, name + '.lean'), 'w').write(text)

# stretches of years
runs = []
for Y in range(FIRST, LAST + 1):
    y = Y - 2000
    si = [i for i, (c, h, r) in enumerate(sun) if abs(y - c) <= h and abs(y + 1 - c) <= h][0]
    c, h, rows = sun[si]
    A, B, R = rows[18]; day = (A + B * (y - c) - R) // M
    for mi, (kc, kh, tc, th, mA, mB, mR) in enumerate(moon):
        b = ((day + 1) * M - 1 - mR - mA) // mB
        if -kh <= b and b + 14 <= kh: break
    else: raise Exception(Y)
    if not runs or runs[-1][2:4] != [si, mi]: runs.append([Y, 1, si, mi])
    else: runs[-1][1] += 1

o = ['import Verif.Proof.High.Check', '', '/-! # Tables of days, generated by `tools/high.py` -/', '', 'namespace High', '']
for i, (c, h, rows) in enumerate(sun):
    o += ['/-- solar terms of the years about %d -/' % (c + 2000), 'def sun%d : List Row := [' % i + '\n' + wrap([nrow(r, c + 2000) for r in rows]) + ']', '']
for i, m in enumerate(moon):
    o += ['/-- new moons about month %d -/' % m[0], 'def moon%d : Row := %s' % (i, nrow(m[4:7], m[0] + 1000)), '']
chunks = []
for i, (Y, n, si, mi) in enumerate(runs):
    c, h, rows = sun[si]; m = moon[mi]
    l11 = [x for x in L11 if Y - 1 <= x < Y - 1 + n]; l12 = [x for x in L12 if Y - 1 <= x < Y - 1 + n]
    o += ['/-- the years %d to %d -/' % (Y, Y + n - 1),
          'def rows%d : Rows := ⟨%s, %s, %s,\n  %s, %d, %d,\n  [%s],\n  [%s]⟩' % (i, *(nrow(rows[s], c + 2000) for s in (18, 20, 22)), nrow(m[4:7], m[0] + 1000),
            m[0] - m[1] + 1000, min(100000, m[0] + m[1] + 1000), ', '.join(map(str, l11)), ', '.join(map(str, l12))), '']
    es = [exc[Z] for Z in range(Y, Y + n) if Z in exc]
    names = []
    while es:
        take, cost = [], 0
        while es and cost < 24:
            e = es.pop(0); take.append(e); cost += 2 * len(e[1]) + len(e[2])
        names.append('exc%d' % len(chunks))
        chunks.append((cost, take))
        o += ['/-- exceptional years -/', 'def %s : List Exc := [\n' % names[-1] + wrap(['(%d, [%s], [%s])' % (e[0], ', '.join('(%d, %d)' % (k + 1000, v + J) for k, v in e[1]),
              ', '.join('(%d, %d)' % (k - 24 * (e[0] - 2000) - 18, v + J) for k, v in e[2])) for e in take]) + ']', '']
    o += ['/-- the exceptional years of %d to %d -/' % (Y, Y + n - 1), 'def excs%d : List Exc := %s' % (i, ' ++ '.join(names) if names else '[]'), '']
    runs[i] += [names]
o += ['end High', '']
write('Data', '\n'.join(o))

groups = [[0, 1, 2], [3, 4, 5], [6, 7], [8, 9]]
for g, bl in enumerate(groups):
    o = ['import Verif.Proof.High.Data', 'import Verif.Proof.High.Lines', '', '/-! # Solar terms: the lines are right (part %d), generated by `tools/high.py` -/' % g, '', 'namespace High', '']
    for i in bl:
        c, h, _ = sun[i]
        o += ['theorem sunOk%d : Block.sunBlockOk %d %d 1000000 0 (sun%d.map (rowAt %d)) = true := by decide +kernel' % (i, c, h, i, c)]
    write('Sun%d' % g, '\n'.join(o + ['', 'end High', '']))

o = ['import Verif.Proof.High.Data', 'import Verif.Proof.High.Lines', '', '/-! # New moons: the lines are right, generated by `tools/high.py` -/', '', 'namespace High', '']
for i, m in enumerate(moon):
    o += ['theorem moonOk%d : Block.moonOk %d %d %d %d (moonAt %d moon%d) (Int.ofNat moon%d.b) moon%d.r = true := by decide +kernel' % (i, m[0], m[1], m[2], m[3], m[0], i, i, i)]
write('Moon', '\n'.join(o + ['', 'end High', '']))

PARTS = 4
tot = sum(c for c, _ in chunks); part = [[] for _ in range(PARTS)]; acc = 0
for j, (c, _) in enumerate(chunks):
    part[min(PARTS - 1, acc * PARTS // tot)].append(j); acc += c
for g, js in enumerate(part):
    o = ['import Verif.Proof.High.Data', '', '/-! # Exceptional years: the days are right (part %d), generated by `tools/high.py` -/' % g, '', 'namespace High', '']
    for j in js: o += ['theorem excOk%d : exc%d.all excOk = true := by decide +kernel' % (j, j)]
    write('Pts%d' % g, '\n'.join(o + ['', 'end High', '']))

o = ['import Verif.Proof.High.Data', 'import Verif.Proof.High.Table', '', '/-! # Every year, generated by `tools/high.py` -/', '', 'namespace High', '']
for i, (Y, n, si, mi, names) in enumerate(runs):
    o += ['theorem runOk%d : runOk rows%d %d %d excs%d = true := by decide +kernel' % (i, i, n, Y, i),
          'theorem rowsOk%d : rowsOk rows%d %d %d = true := by decide +kernel' % (i, i, n, Y),
          'theorem smallOk%d : excs%d.all small = true := by decide +kernel' % (i, i)]
for i, (c, h, _) in enumerate(sun):
    a = max(FIRST, c - h + 2000); b = min(LAST + 2, c + h + 2000)
    o += ['theorem blockOk%d : blockOk %d %d sun%d %d %d = true := by decide +kernel' % (i, c, h, i, a, b)]
for i, m in enumerate(moon):
    o += ['theorem crudeOk%d : crudeMoon moon%d %d %d = true := by decide +kernel' % (i, i, max(500, m[0] - m[1] + 1000), min(100000, m[0] + m[1] + 1000))]
write('Years', '\n'.join(o + ['', 'end High', '']))
# months of the solar calendar
OFF = [0, 28, 59, 89, 120, 150, 181, 212, 242, 273, 303, 334, 365, 393]
def hint(s):
    if s == 23: return 1, 0
    e = s * 15.2184 + 20 - 3 + 28
    i = max(j for j in range(13) if OFF[j] <= e)
    j = i if e - OFF[i] < OFF[i + 1] - e else i + 1
    return 0, min(max(j, 2) - 1, 11)
MONTHS = 6
ranges = []
a = FIRST
for i in range(MONTHS + 1):
    c, h, _ = sun[i]
    ranges.append((a, c + h + 2000 - (1 if i == MONTHS else 0))); a = c + h + 2000
o = ['import Verif.Proof.High.Data', 'import Verif.Proof.High.Lines', '', '/-! # No solar term is in the last second of a month, generated by `tools/high.py` -/', '', 'namespace High', '']
o += ['/-- hints: shift of the year, month, years left out -/', 'def hints : List (ℕ × ℕ × List ℕ) := [\n' + wrap(['(%d, %d, [])' % hint(s) for s in range(24)]) + ']', '']
for i in range(MONTHS + 1):
    o += ['theorem monthOk%d : monthAll %d %d sun%d hints = true := by decide +kernel' % (i, *ranges[i], i)]
o += ['', 'theorem hints_nil : hints.all (fun h => h.2.2.isEmpty) = true := by decide +kernel']
write('Months', '\n'.join(o + ['', 'end High', '']))

# conclusions
o = ['import Verif.Proof.High.Months', 'import Verif.Proof.High.Moon', 'import Verif.Proof.High.Years'] + ['import Verif.Proof.High.Sun%d' % g for g in range(4)] + ['import Verif.Proof.High.Pts%d' % g for g in range(PARTS)]
o += ['', '/-! # What is known of every year, generated by `tools/high.py` -/', '', 'open ShouXing', '', 'namespace High', 'variable {M : Libm} (hM : M.Good)', 'include hM', '']
o += ['theorem sun_facts {Y : ℕ} (h1 : %d ≤ Y) (h2 : Y ≤ %d) : SunFacts M Y := by' % (FIRST, LAST + 2)]
for i, (c, h, _) in enumerate(sun):
    b = min(LAST + 2, c + h + 2000)
    o += ['  by_cases c%d : Y ≤ %d' % (i, b), '  · exact sunFacts hM sunOk%d blockOk%d (by omega) c%d' % (i, i, i)]
o += ['  omega', '']
for i, (Y, n, si, mi, names) in enumerate(runs):
    c, h, _ = sun[si]; m = moon[mi]
    o += ['theorem run%d {Y : ℕ} (h1 : %d ≤ Y) (h2 : Y < %d) : ∃ k, MoonFacts M Y k :=' % (i, Y, Y + n),
          '  run_facts hM runOk%d rowsOk%d (sunRow hM sunOk%d (i := 18) rfl (by norm_num) (by norm_num) (by norm_num))' % (i, i, si),
          '    (sunRow hM sunOk%d (i := 20) rfl (by norm_num) (by norm_num) (by norm_num))' % si,
          '    (sunRow hM sunOk%d (i := 22) rfl (by norm_num) (by norm_num) (by norm_num))' % si,
          '    (moonRow hM moonOk%d (by decide) (by decide) (by decide))' % mi,
          '    (by simp only [excs%d, List.all_append, List.all_nil, Bool.and_true%s]) smallOk%d h1 h2' % (i, ''.join(', excOk' + x[3:] for x in names), i), '']
o += ['theorem moon_facts {Y : ℕ} (h1 : %d ≤ Y) (h2 : Y ≤ %d) : ∃ k, MoonFacts M Y k := by' % (FIRST, LAST)]
for i, (Y, n, si, mi, names) in enumerate(runs):
    o += ['  by_cases c%d : Y < %d' % (i, Y + n), '  · exact run%d hM (by omega) c%d' % (i, i)]
o += ['  omega', '']
o += ['theorem moon_crude {k : ℤ} (h1 : -500 ≤ k) (h2 : k ≤ 99000) :', '    29530600 * (k : ℚ) + 1600000 ≤ moonU M k * 1000000 ∧ moonU M k * 1000000 ≤ 29530600 * (k : ℚ) + 7400000 := by',
      '  obtain ⟨K, rfl⟩ : ∃ K : ℕ, k = (K : ℤ) - 1000 := ⟨(k + 1000).toNat, by omega⟩']
for i, m in enumerate(moon):
    o += ['  by_cases c%d : K ≤ %d' % (i, min(100000, m[0] + m[1] + 1000)), '  · exact crudeMoon_mem crudeOk%d (by omega) c%d (moonRow hM moonOk%d (K1 := %d) (K2 := %d) (by decide) (by decide) (by decide) K (by omega) c%d)' % (i, i, i, max(500, m[0] - m[1] + 1000), min(100000, m[0] + m[1] + 1000), i)]
o += ['  omega', '']
o += ['theorem month_facts {Y s : ℕ} (h1 : %d ≤ Y) (h2 : Y ≤ %d) (hs : s < 24) : InMonth (termV M (24 * (Y - 2000) + s)) := by' % (FIRST, ranges[-1][1]),
      '  have key : ∀ {w : Row} {Y1 Y2 : ℕ} {ws : List Row}, monthAll Y1 Y2 ws hints = true → ws[s]? = some w → Y1 ≤ Y → Y ≤ Y2 →',
      '      w.Bd Y (termV M (24 * (Y - 2000) + s)) → InMonth (termV M (24 * (Y - 2000) + s)) := by',
      '    intro w Y1 Y2 ws H e a b hb',
      '    obtain ⟨h, e2, h3⟩ := monthAll_get H e',
      '    rcases h3 Y a b with h4 | h4',
      '    · have := List.all_eq_true.1 hints_nil h (List.mem_of_getElem? e2)',
      '      rw [List.isEmpty_iff] at this',
      '      rw [this] at h4',
      '      simp at h4',
      '    · exact h4 _ hb']
for i in range(MONTHS + 1):
    o += ['  by_cases c%d : Y ≤ %d' % (i, ranges[i][1]), '  · obtain ⟨w, e, _, _, _, r⟩ := row_facts hM sunOk%d blockOk%d hs' % (i, i),
          '    exact key monthOk%d e (by omega) c%d (r Y (by omega) (by omega)).2' % (i, i)]
o += ['  omega', '']
write('Facts', '\n'.join(o + ['end High', '']))
print(len(runs), 'stretches', len(chunks), 'chunks')
