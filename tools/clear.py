"""Writes lean/Verif/Proof/SunDay/Near*.lean: the principal terms of 1961-2100 that the lines of Proof/High/Data.lean do not
keep clear of midnight, with the half minute they fall in (read from a file with lines `n N`)."""
import sys
rows=[tuple(map(int,l.split())) for l in open(sys.argv[1])]
rows=[r for r in rows if r[0] not in (-484, 294)]
q=(len(rows)+3)//4
for p in range(4):
    part=rows[p*q:(p+1)*q]
    out="import Verif.Proof.SunDay.Point\n\n/-! # Principal terms near midnight (part %d), generated by `tools/clear.py` -/\n\nnamespace SunDay\n\n"%p
    out+="/-- terms and the half minutes after J2000 they fall in -/\ndef near%d : List (ℕ × ℤ) := [\n"%p
    lines=[]
    for i in range(0,len(part),8):
        lines.append("  "+", ".join("(%d, %d)"%(n+1000,N) for n,N in part[i:i+8]))
    out+=",\n".join(lines)+"]\n\n"
    out+="theorem near%d_ok : near%d.all nearOk = true := by decide +kernel\n\nend SunDay\n"%(p,p)
    open("lean/Verif/Proof/SunDay/Near%d.lean"%p,"w").write(out)
