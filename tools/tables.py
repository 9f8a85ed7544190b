# Writes lean/Verif/Model/Tables.lean: constant tables copied from the text of the repository
# (parsed with ast, nothing of the library is executed).
import ast,os
REPO="/repo/lunar_python/"
root=os.path.join(os.path.dirname(os.path.abspath(__file__)),"..")
def consts(fn):
    out={}
    for c in ast.parse(open(REPO+fn).read()).body:
        if isinstance(c,ast.ClassDef):
            for n in c.body:
                if isinstance(n,ast.Assign):
                    try: v=ast.literal_eval(n.value)
                    except Exception: continue
                    out[n.targets[0].id]=(v,n.lineno,n.end_lineno)
    return out
def ch(c): return "'%s'"%{"'":"\\'","\\":"\\\\"}.get(c,c)
def s(x): return "["+", ".join(ch(c) for c in x)+"]"
def lst(xs,f,w=96):
    items=[f(x) for x in xs]; lines=[];cur="  ["
    for i,it in enumerate(items):
        t=it+("," if i<len(items)-1 else "]")
        if len(cur)+len(t)>w and cur.strip()!="[": lines.append(cur.rstrip());cur="   "
        cur+=t+" "
    if not items: cur="  []"
    lines.append(cur.rstrip()); return "\n".join(lines)
def ty(v):
    if isinstance(v,int): return "ℤ"
    if isinstance(v,str): return "PyStr"
    if isinstance(v,(tuple,list)): return "List "+par(ty(v[0]))
    if isinstance(v,dict):
        k=next(iter(v)); return "List (%s × %s)"%(ty(k),ty(v[k]))
def par(t): return "("+t+")" if " " in t else t
def val(v):
    if isinstance(v,int): return str(v)
    if isinstance(v,str): return s(v)
    if isinstance(v,(tuple,list)): return "["+", ".join(val(x) for x in v)+"]"
    if isinstance(v,dict): return "["+", ".join("(%s, %s)"%(val(k),val(x)) for k,x in v.items())+"]"
def emit(o,fn,name,entry,lean=None):
    v,a,b=entry
    o.append("/-- `lunar_python/%s` %s `%s` -/"%(fn,a if a==b else "%d-%d"%(a,b),name))
    n=lean or name.lstrip("_")
    if isinstance(v,int): o.append("def %s : ℤ := %d"%(n,v))
    elif isinstance(v,str): o.append("def %s : PyStr := %s"%(n,s(v)))
    elif isinstance(v,dict): o.append("def %s : %s :=\n%s"%(n,ty(v),lst(list(v.items()),lambda kv:"(%s, %s)"%(val(kv[0]),val(kv[1])))))
    else: o.append("def %s : %s :=\n%s"%(n,ty(v),lst(v,val)))
    o.append("")
def write(out,title,ns,groups):
    o=["import Verif.Model.Py","","/-! # %s"%title,"","Generated by `tools/tables.py` from the text of the repository.  -/",""]
    for nsname,fn,names in groups:
        c=consts(fn)
        o+=["namespace "+nsname,""]
        for n in names: emit(o,fn,n,c[n])
        o+=["end "+nsname,""]
    open(root+"/lean/Verif/Model/"+out,"w").write("\n".join(o).rstrip()+"\n")
LU=["BASE_MONTH_ZHI_INDEX","XUN","XUN_KONG","LIU_YAO","HOU","WU_HOU","GAN","ZHI","JIA_ZI","ZHI_XING","TIAN_SHEN",
 "ZHI_TIAN_SHEN_OFFSET","TIAN_SHEN_TYPE","TIAN_SHEN_TYPE_LUCK","LU","POSITION_XI","POSITION_YANG_GUI","POSITION_YIN_GUI","POSITION_FU","POSITION_FU_2","POSITION_CAI",
 "POSITION_TAI_SUI_YEAR","POSITION_GAN","POSITION_ZHI","POSITION_DESC","PENG_ZU_GAN","PENG_ZU_ZHI","POSITION_TAI_DAY","POSITION_TAI_MONTH",
 "NUMBER","MONTH","SEASON","SHENGXIAO","DAY","YUE_XIANG","FESTIVAL","OTHER_FESTIVAL","XIU","XIU_LUCK","SHOU","CHONG","CHONG_GAN","CHONG_GAN_TIE","CHONG_GAN_4","HE_GAN_5","HE_ZHI_6","SHA",
 "GONG","ZHENG","ANIMAL","WU_XING_GAN","WU_XING_ZHI","NAYIN","SHI_SHEN","ZHI_HIDE_GAN"]
write("Tables.lean","Constant tables",None,[("LunarUtil","util/LunarUtil.py",LU),
 ("EightChar","EightChar.py",["MONTH_ZHI","CHANG_SHENG","__CHANG_SHENG_OFFSET"]),
 ("Lunar","Lunar.py",["JIE_QI","JIE_QI_IN_USE"]),
 ("LunarYear","LunarYear.py",["YUAN","YUN","__LEAP_11","__LEAP_12"])])
write("NineStarTables.lean","Tables of the nine stars",None,[("NineStar","NineStar.py",
 ["NUMBER","COLOR","WU_XING","POSITION","NAME_BEI_DOU","NAME_XUAN_KONG","NAME_QI_MEN","BA_MEN_QI_MEN","NAME_TAI_YI","TYPE_TAI_YI",
  "SONG_TAI_YI","LUCK_XUAN_KONG","LUCK_QI_MEN","YIN_YANG_QI_MEN"])])
# festivals of the Buddhist and Taoist calendars: constructor calls with literal arguments
def festivals(fn,name,cls):
    for c in ast.parse(open(REPO+fn).read()).body:
        if isinstance(c,ast.ClassDef):
            env={}
            def ev(n):
                if isinstance(n,ast.Constant): return n.value
                if isinstance(n,ast.Name): return env[n.id]
                if isinstance(n,ast.List): return [ev(x) for x in n.elts]
                if isinstance(n,ast.Call): assert n.func.id==cls and not n.keywords; return tuple(ev(x) for x in n.args)
                if isinstance(n,ast.Dict): return [(ev(k),ev(v)) for k,v in zip(n.keys,n.values)]
                raise ValueError(ast.dump(n))
            for n in c.body:
                if isinstance(n,ast.Assign) and not isinstance(n.value,ast.Tuple):
                    env[n.targets[0].id]=ev(n.value)
                    if n.targets[0].id==name: return env[name],n.lineno,n.end_lineno
def fest(out,title,ns,fn,name,cls,consts_,conv):
    o=["import Verif.Model.Festival","","/-! # %s"%title,"","Generated by `tools/tables.py` from the text of the repository (constants used in an entry are written out).  -/","","namespace "+ns,""]
    c=consts(fn)
    for n in consts_: emit(o,fn,n,c[n])
    v,a,b=festivals(fn,name,cls)
    o+=["/-- `lunar_python/%s` %d-%d `%s` -/"%(fn,a,b,name),"def %s : List (PyStr × List %s) :="%(name,cls),
        lst(v,lambda kv:"(%s, [%s])"%(s(kv[0]),", ".join(conv(x) for x in kv[1]))),"","end "+ns]
    open(root+"/lean/Verif/Model/"+out,"w").write("\n".join(o)+"\n")
fest("FotoTables.lean","Tables of `util/FotoUtil.py`","FotoUtil","util/FotoUtil.py","FESTIVAL","FotoFestival",
 ["DAY_ZHAI_GUAN_YIN","XIU_27","XIU_OFFSET","OTHER_FESTIVAL"],
 lambda x:"⟨%s, %s, %s, %s⟩"%(s(x[0]),s((x[1:2] or ("",))[0] or ""),"true" if x[2:3]==(True,) else "false",s((x[3:4] or ("",))[0] or "")))
fest("TaoTables.lean","Tables of `util/TaoUtil.py`","TaoUtil","util/TaoUtil.py","FESTIVAL","TaoFestival",
 ["SAN_HUI","SAN_YUAN","WU_LA","AN_WU","BA_HUI","BA_JIE"],
 lambda x:"⟨%s, %s⟩"%(s(x[0]),s((x[1:2] or ("",))[0] or "")))
write("MoreTables.lean","Tables of the mansions and of the solar calendar",None,[("LunarUtil","util/LunarUtil.py",["XIU_SONG"]),
 ("SolarUtil","util/SolarUtil.py",["WEEK","XING_ZUO","FESTIVAL","WEEK_FESTIVAL","OTHER_FESTIVAL"])])
# the packed almanac texts: one tuple of hexadecimal numbers per record, each with a leading digit 1
import re
def packed(out):
    fn="util/LunarUtil.py"; c=consts(fn)
    o=["import Verif.Model.Py","","/-! # The packed almanac texts of `util/LunarUtil.py`","",
       "Generated by `tools/tables.py` from the text of the repository.  Each record is a tuple of its fields; a field is",
       "written as a hexadecimal number with a digit 1 put in front (so that leading zeros and empty fields are kept).",
       "The generator checks that the records put together are the text of the repository. -/","","namespace LunarUtil",""]
    for n in ["__YI_JI","__SHEN_SHA"]: emit(o,fn,n,c[n])
    for n,k,pat,fmt,t in [("__DAY_YI_JI",2,r'([0-9A-F]{2})=([0-9A-F]*):([0-9A-F]*),((?:[0-9A-F]{2})*?)(?=[0-9A-F]{2}=|$)','%s=%s:%s,%s',"ℕ × ℕ × ℕ × ℕ"),
                      ("__TIME_YI_JI",4,r'([0-9A-F]{4})=([0-9A-F]*),((?:[0-9A-F]{2})*?)(?=[0-9A-F]{4}=|$)','%s=%s,%s',"ℕ × ℕ × ℕ"),
                      ("__DAY_SHEN_SHA",3,r'([0-9A-F]{3})=([0-9A-F]*),((?:[0-9A-F]{2})*?)(?=[0-9A-F]{3}=|$)','%s=%s,%s',"ℕ × ℕ × ℕ")]:
        v,a,b=c[n]; R=re.findall(pat,v)
        assert "".join(fmt%r for r in R)==v
        o+=["/-- `lunar_python/%s` %d `%s`: the records -/"%(fn,a,n),"def %s_RECORDS : List (%s) :="%(n.lstrip("_"),t),
            lst(R,lambda r:"("+", ".join("0x1"+x for x in r)+")",130),""]
    o.append("end LunarUtil")
    open(root+"/lean/Verif/Model/"+out,"w").write("\n".join(o)+"\n")
packed("YiJiTables.lean")
# the astronomical tables: decimals are written as integers times a power of ten given in the comment
from decimal import Decimal
def shouxing(out):
    fn="util/ShouXingUtil.py"; lines=open(REPO+fn,encoding="utf8").read().split("\n")
    def num(n):
        if isinstance(n,ast.UnaryOp): return -num(n.operand)
        return Decimal(lines[n.lineno-1].encode()[n.col_offset:n.end_col_offset].decode())
    T={}
    for c in ast.parse("\n".join(lines)).body:
        if isinstance(c,ast.ClassDef):
            for n in c.body:
                if isinstance(n,ast.Assign) and isinstance(n.value,ast.Tuple):
                    f=lambda es:[f(e.elts) if isinstance(e,ast.Tuple) else num(e) for e in es]
                    T[n.targets[0].id]=(f(n.value.elts),n.lineno,n.end_lineno)
    def sc(x,e):
        y=x.scaleb(e); assert y==int(y),x; return str(int(y))
    def rows(v,es): return [tuple(sc(x,e) for x,e in zip(v[i:i+len(es)],es)) for i in range(0,len(v),len(es))]
    tup=lambda r:"⟨"+", ".join(r)+"⟩"
    o=["import Mathlib.Data.Int.Notation","import Mathlib.Data.Nat.Notation","","/-! # The tables of `util/ShouXingUtil.py`","",
       "Generated by `tools/tables.py` from the text of the repository.  A decimal is written as an integer; the comment of",
       "the table says how many decimal places it has. -/","","namespace ShouXing",""]
    def put(name,ty,com,items): o.extend(["/-- `lunar_python/%s` %s -/"%(fn,com),"def %s : List (%s) :="%(name,ty),lst(items,tup,120),""])
    v,a,b=T["__NUT_B"]
    put("NUT_B","ℤ × ℤ × ℤ × ℤ","%d-%d `__NUT_B`, by rows of five; places 4, 5, 6, 0 (the fifth number is never read)"%(a,b),[r[:4] for r in rows(v,(4,5,6,0,0))])
    v,a,b=T["__DT_AT"]
    r=rows(v[:-2],(0,2,2,3,4)); r=[x+(y,) for x,y in zip(r,[x[0] for x in r[1:]]+[sc(v[-2],0)])]
    put("DT_AT","ℤ × ℤ × ℤ × ℤ × ℤ × ℤ","%d-%d `__DT_AT`, by rows of five, each with the first number of the next row; places 0, 2, 2, 3, 4, 0"%(a,b),r)
    o+=["/-- `lunar_python/%s` %d: the last two numbers of `__DT_AT`; places 0 and 1 -/"%(fn,b-1),"def DT_END : ℤ × ℤ := (%s, %s)"%(sc(v[-2],0),sc(v[-1],1)),""]
    v,a,b=T["__XL0"]
    assert [int(x) for x in v[:8]]==[10000000000,20,578,920,1100,1124,1136,1148]
    for i in range(6):
        p,q=int(v[1+i]),int(v[2+i])
        put("XL0_%d"%i,"ℤ × ℤ × ℤ","%d-%d `__XL0[%d:%d]`, by threes; places 0, 9, 9"%(a,b,p,q),rows(v[p:q],(0,9,9)))
    v,a,b=T["__XL1"]
    for i in range(4):
        put("XL1_%d"%i,"ℤ × ℤ × ℤ × ℤ × ℤ × ℤ","%d-%d `__XL1[%d]`, by sixes; places 7, 8, 9, 7, 4, 6"%(a,b,i),rows(v[i],(7,8,9,7,4,6)))
    for nm,p in (("QI_KB",(6,9)),("SHUO_KB",(6,8))):
        v,a,b=T["__"+nm]
        put(nm,"ℤ × ℤ","%d-%d `__%s` without its last number, by twos; places %d, %d"%((a,b,nm)+p),rows(v[:-1],p))
        o+=["/-- `lunar_python/%s` %d: the last number of `__%s`; 2 places -/"%(fn,b-1 if b>a else b,nm),"def %s_END : ℤ := %s"%(nm,sc(v[-1],2)),""]
    for nm in ("SB","QB"):
        i,l=[(i,l) for i,l in enumerate(lines) if "__%s = ShouXingUtil.__decode(\""%nm in l][0]
        t=l.split('"')[1]
        o+=["/-- `lunar_python/%s` %d: the coded text of `__%s` -/"%(fn,i+1,nm),"def %s_CODE : String := \"%s\""%(nm,t),""]
    o.append("end ShouXing")
    open(root+"/lean/Verif/Model/"+out,"w").write("\n".join(o)+"\n")
    W=10**19+51; TP=(62831853071795864769252867665590057683943*W)//10**31 # 1 and 2 pi 10^9
    o=["import Mathlib.Data.Nat.Notation","","/-! # The tables `XL0` and `XL1` prepared for evaluation by the kernel","",
       "Generated by `tools/tables.py`; `Proof/Rows.lean` proves that they agree with the tables of the model. -/","","namespace Aff0","",
       "/-- a row of `XL0`: amplitude (positive and negative part), the amplitude again unless the row is constant, phase and frequency -/",
       "structure ERow where","  ap : ℕ","  an : ℕ","  g : ℕ","  p : ℕ","  q : ℕ","  deriving DecidableEq","",
       "/-- a row of `XL1` -/",
       "structure MRow where"]+["  %s : ℕ"%x for x in "ap an p q r s u".split()]+["  deriving DecidableEq",""]
    v=T["__XL0"][0]
    for i in range(6):
        p,q=int(v[1+i]),int(v[2+i]); rs=[]
        for a,b,c in rows(v[p:q],(0,9,9)):
            a,b,c=int(a),int(b),int(c)
            rs.append(tuple(map(str,(max(a,0),max(-a,0),abs(a) if c else 0,b*W%TP,c%TP))))
        o.extend(["/-- group %d of `XL0` -/"%i,"def XL0r_%d : List ERow :="%i,lst(rs,tup,120),""])
    v=T["__XL1"][0]
    for i in range(4):
        rs=[]
        for a,b,c,d,e,f in rows(v[i],(7,8,9,7,4,6)):
            a,b,c,d,e,f=map(int,(a,b,c,d,e,f))
            rs.append(tuple(map(str,(max(a,0),max(-a,0),b*10*W%TP,c%TP,d*100%TP,e*100000%TP,f*1000%TP))))
        o.extend(["/-- `XL1 %d` -/"%i,"def XL1r_%d : List MRow :="%i,lst(rs,tup,120),""])
    o.append("end Aff0")
    open(root+"/lean/Verif/Proof/RowTables.lean","w").write("\n".join(o)+"\n")
    print(W,TP)
shouxing("ShouXingTables.lean")
