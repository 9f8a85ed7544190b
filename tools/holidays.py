"""Write lean/Verif/Model/HolidayData.lean from the built-in records of /repo/lunar_python/util/HolidayUtil.py (lines 12-13)."""
import re

SRC = '/repo/lunar_python/util/HolidayUtil.py'
OUT = '/verif/lean/Verif/Model/HolidayData.lean'


def main():
    lines = open(SRC, encoding='utf8').read().split('\n')
    names = re.findall(r'"([^"]+)"', lines[11])
    data = re.search(r'"(\d+)"', lines[12]).group(1)
    assert len(data) % 18 == 0
    recs = [data[i:i + 18] for i in range(0, len(data), 18)]
    out = ['import Verif.Model.Holiday', '',
           '/-! # The built-in holiday records of `lunar_python/util/HolidayUtil.py`, generated by `tools/holidays.py` -/', '',
           'namespace HolidayUtil', '',
           '/-- `lunar_python/util/HolidayUtil.py` 12 `NAMES` -/',
           'def NAMES : List PyStr :=',
           '  [' + ', '.join('[' + ', '.join("'%s'" % c for c in n) + ']' for n in names) + ']', '']
    k = 0
    for i in range(0, len(recs), 100):
        out += ['/-- records %d to %d of `lunar_python/util/HolidayUtil.py` 13 `__DATA` -/' % (i, min(i + 100, len(recs)) - 1),
                'def records%d : List ℕ := [' % k]
        part = recs[i:i + 100]
        rows = ['  ' + ', '.join(part[j:j + 6]) for j in range(0, len(part), 6)]
        out += [',\n'.join(rows) + ']', '']
        k += 1
    out += ['/-- `lunar_python/util/HolidayUtil.py` 13 `__DATA`, cut into its pieces of 18 digits, each read as a number -/',
            'def RECORDS : List ℕ :=',
            '  ' + ' ++ ('.join('records%d' % i for i in range(k)) + ')' * (k - 1), '',
            '/-- the last `w` decimal digits of a number, leading zeros included -/',
            'def digits (w n : ℕ) : PyStr := (List.range w).map (fun i => Char.ofNat (48 + n / 10 ^ (w - 1 - i) % 10))', '',
            '/-- `lunar_python/util/HolidayUtil.py` 13 `__DATA` -/',
            'def DATA : PyStr := (RECORDS.map (digits 18)).flatten', '',
            '/-- `lunar_python/util/HolidayUtil.py` 15-16: the state before any call of `fix` -/',
            'def initial : HState := ⟨NAMES, DATA⟩', '',
            'end HolidayUtil', '']
    open(OUT, 'w', encoding='utf8').write('\n'.join(out))


if __name__ == '__main__':
    main()
