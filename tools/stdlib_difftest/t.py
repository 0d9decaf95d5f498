import random,subprocess,sys,binascii
from urllib.parse import *
sys.path=[p for p in sys.path]
random.seed(int(sys.argv[1]) if len(sys.argv)>1 else 1)
def sS(s): return ",".join(str(ord(c)) for c in s)
def sO(s): return "None" if s is None else sS(s)
def gen(al,n): return "".join(random.choice(al) for _ in range(random.randrange(n)))
def split(s):
    try: r=urlsplit(s)
    except ValueError: return "ERR"
    try: p=r.port; p="None" if p is None else str(p)
    except ValueError: p="ERR"
    try: df=sS(urldefrag(s)[0])
    except ValueError: df="ERR"
    return "|".join(map(sS,r))+"|"+sO(r.hostname)+"|"+p+"|"+sO(r.username)+"|"+sO(r.password)+"|"+sS(urlunsplit(r))+"|"+df
def qsl(s): return ";".join(sS(a)+"="+sS(b) for a,b in parse_qsl(s))+"#"+";".join(sS(a)+"="+sS(b) for a,b in parse_qsl(s,keep_blank_values=True))
def dec(s):
    b=bytes(ord(c) for c in s)
    try: b.decode('utf-8'); ok="ok"
    except ValueError: ok="ERR"
    return sS(b.decode('utf-8','replace'))+"|"+ok
def b64(s):
    try: return ",".join(str(x) for x in binascii.a2b_base64(s))
    except ValueError: return "ERR"
def idna(s):
    try: return sS(s.encode('idna').decode('utf-8'))
    except ValueError: return "ERR"
cases=[]
for _ in range(3000):
    u=gen("ah:/?#@%;.\t +-1A",14)
    cases.append(("split",u,split(u)))
    u="http://"+gen("a:/?#@%;.1A8",14)
    cases.append(("split",u,split(u)))
    u=gen("%4aAfF eé€𝄞c39+b8",12); cases.append(("unq",u,sS(unquote(u))))
    u="".join(random.choice(["%C3","%A9","%E2","%82","%AC","%F0","%9d","%84","%9E","a","é","%ED","%A0","%80","%"]) for _ in range(random.randrange(8))); cases.append(("unq",u,sS(unquote(u))))
    u=gen("a&=+%41;",12); cases.append(("qsl",u,qsl(u)))
    u=gen("a&=+%~/ é€𝄞",8); cases.append(("quote",u,sS(quote(u,safe="/!$&'()*+,;="))+"|"+sS(quote_plus(u))))
    u="".join(chr(random.choice([0x41,0x80,0xbf,0x9f,0xa0,0xc1,0xc2,0xe0,0xed,0xef,0xf0,0xf4,0xf5,0x90,0x8f,0xff,0xe1,0xf1])) for _ in range(random.randrange(7))); cases.append(("dec",u,dec(u)))
    u=gen("AQ=/+\nz-",10); cases.append(("b64",u,b64(u)))
    u=gen("a.b-",6)+random.choice(["","x"*62,"x"*63,"x"*64])+gen("a.",4); cases.append(("idna",u,idna(u)))
    u=gen(" \t\x1c\x85\xa0\u200b\u2003a\u3000\x1f\x1b",6); cases.append(("strip",u,sS(u.strip())))
inp="\n".join(c[0]+" "+sS(c[1]) for c in cases)+"\n"
r=subprocess.run(["lake","env","lean","--run","/tmp/dt/T.lean"],input=inp,capture_output=True,text=True,cwd="/verif/lean")
out=r.stdout.split("\n")
bad=0
for c,o in zip(cases,out):
    if c[1]!="" and c[2]!=o:
        bad+=1
        if bad<10: print(repr(c),repr(o))
print(len(cases),len(out),"bad",bad,r.stderr[:500])
