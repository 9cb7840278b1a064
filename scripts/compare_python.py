"""Compare the model of Python's own functions with Python on random inputs.

Usage: compare_python.py [seed]. Prints a line DIFF for every disagreement. Nothing of the project is
run: the calls of add_option are read from the text of the tools and made on Python's optparse.
"""
import ast, contextlib, io, optparse, os, random, re, subprocess, sys, tempfile
random.seed(int(sys.argv[1]) if len(sys.argv)>1 else 1)
TMP = os.path.join(tempfile.mkdtemp(), "T.lean")
LEAN = os.path.join(os.path.dirname(os.path.dirname(os.path.abspath(__file__))), "lean")
tests=[]   # (lean expr : List Nat encoded str/..., expected text)
def L(s): return "(S ["+",".join(str(ord(c)) for c in s)+"])"
def LL(l): return "["+",".join(L(s) for s in l)+"]"
AL="ab-+_ 019\t\n\x0b\x1c\x1f\x85\xa0　٥１=,.%'\"\\\xe9A"
def rs(n=8,al=AL): return "".join(random.choice(al) for _ in range(random.randint(0,n)))
def enc(s): return "s"+",".join(str(ord(c)) for c in s)
def add(e,x): tests.append((e,x))
for _ in range(300):
    s=rs()
    add("es (strip %s)"%L(s), enc(s.strip()))
    add("el (pyWords %s)"%L(s), "l"+";".join(enc(w) for w in s.split()))
    add("er (firstWord %s)"%L(s), enc(s.split()[0]) if s.split() else "IndexError")
    add("el (pySplit ',' %s)"%L(s), "l"+";".join(enc(w) for w in s.split(',')))
    t=rs(6,"0123456789_+- ٥１\x1c\xa0")
    try: x="i%d"%int(t)
    except ValueError: x="ValueError"
    add("ei (pyInt %s)"%L(t), x)
    n=random.randint(-2000,2000); w=random.randint(0,9)
    add("es (zeroPad %d (%d))"%(w,n), enc("{num:0{w}}".format(num=n,w=w)) if w else enc(str(n)))
    a,b=random.randint(-12,12),random.randint(-12,12)
    add("es (slice %s (%d) (%d))"%(L(s),a,b), enc(s[a:b]))
    add("es (sliceFrom %s (%d))"%(L(s),a), enc(s[a:]))
    st=random.randint(-4,4)
    try: x="n"+str(list(range(a,b,st)))
    except ValueError: x="ValueError"
    add("en (pyRangeStep (%d) (%d) (%d))"%(a,b,st), x)
    u=rs(10,"ab\r\n")
    add("es (universal %s)"%L(u), enc(u.replace("\r\n","\n").replace("\r","\n")))
    v=io.StringIO(u.replace("\r\n","\n").replace("\r","\n"))
    add("el (readlines (universal %s))"%L(u), "l"+";".join(enc(w) for w in v.readlines()))
    add("eb (strLe %s %s)"%(L(s),L(u)), "b"+str(s<=u))
    add("es (reprStr pr %s)"%L(s), enc(repr(s)))
    n=random.randint(0,random.choice([3,50,100000])); tot=random.randint(1,random.choice([3,50,100000,10**9]))
    if n>tot: n,tot=tot,n
    add("es (freqText %s %d %d)"%(L("AB"),n,tot), enc("%-8s %6d  %6.2f%%"%("AB",n,100*float(n)/float(tot))))
    add("es (numeral 8 %d)"%tot, enc("%o"%tot)); 
    x=random.randint(-10**6,10**6); k=random.randint(-2,30)
    for f,g in (("shl",lambda:x<<k),("shr",lambda:x>>k)):
        try: r="i%d"%g()
        except ValueError: r="ValueError"
        add("ei (%s (%d) (%d))"%(f,x,k), r)
    t=rs(4,"a\x7f\x80\u07ff\u0800\ud7ff\ue000\ufeff\uffff\U00010000\U0010ffff")
    add("ebs (utf8Encode %s)"%L(t), "n"+str(list(t.encode("utf-8"))))
    bs=list(t.encode("utf-8"))
    for _ in range(random.randint(0,2)):
        if bs and random.random()<.7: bs[random.randrange(len(bs))]=random.choice([0,0x7f,0x80,0xbf,0xc0,0xc1,0xc2,0xdf,0xe0,0xed,0xf0,0xf4,0xf5,0xff,random.randrange(256)])
        elif bs: del bs[random.randrange(len(bs))]
    try: x=enc(bytes(bs).decode("utf-8"))
    except UnicodeDecodeError: x="UnicodeDecodeError"
    add("ed (utf8Decode %s)"%bs, x)
    b4=[random.choice([0xe0,0xed,0xee,0xf0,0xf1,0xf4,0xc2,0xdf]),random.choice([0x7f,0x80,0x8f,0x90,0x9f,0xa0,0xbf,0xc0]),random.choice([0x80,0xbf,0x41]),random.choice([0x80,0xbf,0x41])]
    try: x=enc(bytes(b4).decode("utf-8"))
    except UnicodeDecodeError: x="UnicodeDecodeError"
    add("ed (utf8Decode %s)"%b4, x)
    o=rs(3,"ab"); 
    if o:
        add("es (replaceAux %s %s 0 %s)"%(L(o),L("xy"),L("".join(random.choice("ab") for _ in range(9)))) , None)
        m=re.findall(r"\(S \[([0-9,]*)\]\)",tests[-1][0])[-1]
        tt="".join(chr(int(q)) for q in m.split(","))
        tests[-1]=(tests[-1][0],enc(tt.replace(o,"xy")))
# optparse
T={"CHECK_INSTRUCTIONS":("FILES_USAGE","CHECK_INSTRUCTIONS_HELPS",[("-a","--all","all"),("-c","--count","count"),("-i","--invalid","invalid"),("-p","--print-opcodes","printOpcodes"),("-s","--sort","sort"),("-u","--unused","unused"),("-v","--verbose","verbose")]),
"CHECK_SYMBOLS":("FILES_USAGE","CHECK_SYMBOLS_HELPS",[("-v","--verbose","verbose"),("-c","--complex","complex")]),
"FIND_SYMBOLS":("FIND_USAGE","FIND_SYMBOLS_HELPS",[("-b","--begin","begin"),("-D","--details","details"),("-e","--end","end"),("-f","--fuzzy","fuzzy"),("-v","--verbose","verbose"),("-x","--exact","exact")]),
"LIST_INSTRUCTIONS":("LIST_USAGE","LIST_INSTRUCTIONS_HELPS",[("-D","--details","details"),("-v","--verbose","verbose")]),
"VERBOSE":("FILES_USAGE","VERBOSE_HELPS",[("-v","--verbose","verbose")]),
"PARSE":("FILES_USAGE","PARSE_HELPS",[("-d","--debug","debug"),("-v","--verbose","verbose")]),
"NO":("GENLINES_USAGE","[HELP_HELP]",[])}
U={"FILES_USAGE":"usage: %prog filename [filename]...","FIND_USAGE":"usage: %prog [options] symbol filename [filename]...","LIST_USAGE":"usage: %prog opcode filename [filename]...","GENLINES_USAGE":"usage: %prog start end [step] [startcol] [endcol]"}
# help texts are read from the tools as text
os.environ["COLUMNS"]="80"
def helps(path):
    out=[];us=None
    tree=ast.parse(open(path).read())
    for n in ast.walk(tree):
        if isinstance(n,ast.Call) and getattr(n.func,'attr','')=="add_option":
            out.append(([a.value for a in n.args],{k.arg:ast.literal_eval(k.value) for k in n.keywords}))
        if isinstance(n,ast.Call) and getattr(n.func,'id','')=="OptionParser": us=n.args[0].value
    return us,out
F={"CHECK_INSTRUCTIONS":"check-instructions","CHECK_SYMBOLS":"check-symbols","FIND_SYMBOLS":"find-symbols","LIST_INSTRUCTIONS":"list-instructions","VERBOSE":"listing","PARSE":"parse","NO":"genlines"}
for k,(us,hp,_) in T.items():
    usage,os_=helps("/repo/tools/%s.py"%F[k])
    def mk(prog):
        p=optparse.OptionParser(usage,prog=prog)
        for a,kw in os_: p.add_option(*a,**kw)
        return p
    for prog in ["x","a-long-program-name.py"]:
        add("es (helpText %s %s %s_OPTS %s)"%(L(prog),us,k,hp), enc(mk(prog).format_help()))
    longs=["--help"]+[a[1] for a,_ in os_]; shorts="h"+"".join(a[0][1] for a,_ in os_)
    dests=[kw["dest"] for a,kw in os_]
    for _ in range(120):
        argv=[]
        for _ in range(random.randint(0,4)):
            r=random.random()
            if r<.3:
                l=random.choice(longs); argv.append(l[:random.randint(1,len(l))]+random.choice(["","","","=x","="]))
            elif r<.6: argv.append("-"+"".join(random.choice(shorts+"z") if random.random()<.9 else random.choice(shorts) for _ in range(random.randint(0,3))))
            elif r<.7: argv.append(random.choice(["--","-","--z","--=","","-=","---"]))
            else: argv.append(rs(3,"ab-="))
        p=mk("prg"); err=io.StringIO(); out=io.StringIO()
        try:
            with contextlib.redirect_stderr(err), contextlib.redirect_stdout(out):
                o,a=p.parse_args(argv)
            x="ok "+"".join("1" if getattr(o,d) else "0" for d in dests)+" l"+";".join(enc(w) for w in a)
        except SystemExit as e:
            x="exit "+(enc(err.getvalue()) if e.code==2 else "help "+enc(out.getvalue()))
        add("ep %s %s_OPTS %s %s %s"%(us,k,hp,"["+",".join('(py "%s")'%d for d in dests)+"]",LL(argv)), x)
hdr='''import Verif.Model.Help
import Verif.Model.Percent
import Verif.Model.Repr
import Verif.Model.Newlines
import Verif.Model.LastWords
import Verif.Model.Disk
open H800
def S (l : List Nat) : Str := l.map Char.ofNat
def es (s : Str) : String := "s" ++ ",".intercalate (s.map fun c => toString c.toNat)
def el (l : List Str) : String := "l" ++ ";".intercalate (l.map es)
def ee : PyErr → String
  | .indexError => "IndexError" | .valueError => "ValueError" | _ => "other"
def er : Py Str → String | .ok s => es s | .error e => ee e
def ei : Py Int → String | .ok s => s!"i{s}" | .error e => ee e
def en : Py (List Int) → String | .ok s => s!"n{s}" | .error e => ee e
def ebs (l : List UInt8) : String := s!"n{l.map fun b => b.toNat}"
def ed : Option Str → String | some s => es s | none => "UnicodeDecodeError"
def eb (b : Bool) : String := if b then "bTrue" else "bFalse"
def pr (c : Char) : Bool := !(c.toNat < 32 || c.toNat = 0x85 || c.toNat = 0xa0 || c.toNat = 0x3000 || c.toNat = 127)
def ep (us : Str) (o : List Opt) (hs : List Str) (ds : List Str) (argv : List Str) : String :=
  match parseArgs o argv with
  | .ok (v, a) => "ok " ++ String.join (ds.map fun d => if optValue v d then "1" else "0") ++ " " ++ el a
  | .error e => match optExitText (py "prg") us o e with
    | some t => "exit " ++ es t
    | none => "exit help " ++ es ((helpPrinted (py "prg") us o hs argv).getD [])
'''
N=400
res=[]
for i in range(0,len(tests),N):
    ch=tests[i:i+N]
    open(TMP,"w").write(hdr+"\n".join("#eval IO.println (%s)"%e for e,_ in ch)+"\n")
    r=subprocess.run(["lake","env","lean",TMP],cwd=LEAN,capture_output=True,text=True)
    out=[l for l in r.stdout.split("\n") if l!=""]
    if len(out)!=len(ch): print("LEN",len(out),len(ch)); print(r.stdout[:1500],r.stderr[:500]); break
    for (e,x),o in zip(ch,out):
        if o!=x: print("DIFF",e,"\n  lean",o,"\n  py  ",x)
print("tests",len(tests))
