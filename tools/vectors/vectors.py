"""The test vectors of /repo/tests as one call of the library per line."""
import re,subprocess,json,sys
T='/repo/tests/'
h=open('/repo/lib/idn2.h.in').read()
consts={}
for m in re.finditer(r'\b(IDN2_\w+)\s*=\s*(-?\w+)',h):
    try: consts[m.group(1)]=int(m.group(2),0)
    except: pass
tokre=re.compile(rb'''\s+|/\*.*?\*/|//[^\n]*|#[^\n]*|"(?:\\.|[^"\\])*"|L?'(?:\\.|[^'\\])*'|[A-Za-z_]\w*|-?0[xX][0-9a-fA-F]+|-?\d+|[{}|,;=\[\]()]|.''',re.S)
def unesc(b):
    out=bytearray();i=0
    while i<len(b):
        c=b[i:i+1]
        if c!=b'\\': out+=c;i+=1;continue
        d=b[i+1:i+2]
        if d==b'x':
            m=re.match(rb'[0-9a-fA-F]+',b[i+2:]);v=int(m.group(),16);assert v<256,b;out.append(v);i+=2+len(m.group())
        elif d in b'01234567':
            m=re.match(rb'[0-7]{1,3}',b[i+1:]);out.append(int(m.group(),8));i+=1+len(m.group())
        else:
            out+={b'n':b'\n',b't':b'\t',b'\\':b'\\',b'"':b'"'}[d];i+=2
    return bytes(out)
def tokens(src):
    for m in tokre.finditer(src):
        t=m.group()
        if t[:1].isspace() or t[:2] in(b'/*',b'//') or t[:1]==b'#': continue
        yield t
def parse(src,name):
    src=re.sub(rb'\n#if 0.*?\n#endif',b'',src,flags=re.S)
    ts=list(tokens(src))
    for i in range(len(ts)):
        if ts[i]==name and ts[i+1]==b'[' and ts[i+2]==b']' and ts[i+3]==b'=': break
    pos=i+4
    def val():
        nonlocal pos
        t=ts[pos]
        if t==b'{':
            pos+=1;l=[]
            while ts[pos]!=b'}':
                l.append(val())
                if ts[pos]==b',': pos+=1
            pos+=1;return l
        if t[:1]==b'"':
            s=b''
            while ts[pos][:1]==b'"': s+=unesc(ts[pos][1:-1]);pos+=1
            return s
        v=0
        while True:
            t=ts[pos];pos+=1
            if t==b'NULL': v=None
            elif re.match(rb'-?\d',t): v|=int(t,0)
            else: v|=consts[t.decode()]
            if ts[pos]!=b'|': return v
            pos+=1
    return val()
V=[]
def hx(b): return 'N' if b is None else 'x'+b.hex()
def add(src,fn,flags,a,b=None,exp=None): V.append(dict(src=src,fn=fn,flags=flags,a=hx(a),b=hx(b),exp=exp))
# lookup
inc=subprocess.run(['perl',T+'gen-utc-test.pl',T+'IdnaTest.txt'],capture_output=True).stdout
src=open(T+'test-lookup.c','rb').read().replace(b'#include "IdnaTest.inc"',inc)
F=consts
for i,e in enumerate(parse(src,b'idna')):
    e=e+[0]*(4-len(e)); 
    inp,out,rc,fl=e
    x=dict(kind='home',rc=rc,out=out.decode('latin1'))
    add(f'test-lookup.c:{i}','lookup_u8',fl,inp.split(b'\0')[0],exp=x)
    if not fl&(F['IDN2_NONTRANSITIONAL']|F['IDN2_TRANSITIONAL']): add(f'test-lookup.c:{i}:notr46','lookup_u8',fl|F['IDN2_NO_TR46'],inp.split(b'\0')[0],exp=x)
    if not fl&(F['IDN2_NO_TR46']|F['IDN2_TRANSITIONAL']): add(f'test-lookup.c:{i}:nt','lookup_u8',fl|F['IDN2_NONTRANSITIONAL'],inp.split(b'\0')[0],exp=x)
# IdnaTest.txt
def dec(s):
    s=s.decode('utf-8')
    u=re.sub(r'\\u([0-9A-F]{4})',lambda m:chr(int(m.group(1),16)),s)
    u=re.sub('[\ud800-\udbff][\udc00-\udfff]',lambda m:chr(0x10000+((ord(m.group()[0])-0xd800)<<10)+ord(m.group()[1])-0xdc00),u)
    try: return u.encode('utf-8')
    except UnicodeEncodeError: return None
for n,l in enumerate(open(T+'IdnaTest.txt','rb')):
    l=l.strip()
    if not l or l[:1]==b'#': continue
    # _nextField
    f=[x.strip() for x in l.split(b'#')[0].split(b';')] 
    f+= [b'']*(5-len(f))
    ty,so,tu,ta,nv=f[:5]
    s=dec(so)
    if s is None: continue
    if not tu: tu=s
    if not ta: ta=tu
    for tr in ((1,0) if ty==b'B' else (1,) if ty==b'T' else (0,)):
        add(f'IdnaTest.txt:{n+1}','lookup_u8',F['IDN2_TRANSITIONAL'] if tr else F['IDN2_NONTRANSITIONAL'],s.split(b'\0')[0],exp=dict(kind='utc',tr=tr,out=ta.decode('latin1'),nv=bool(nv)))
for i,e in enumerate(parse(open(T+'test-tounicode.c','rb').read(),b'test')):
    name,pc,u32,rc=e
    u32=(u32+[0])[:]; u32=u32[:u32.index(0)]
    x=dict(kind='uni',rc=rc,u32=u32)
    for fn in ['to_unicode_8z4z','to_unicode_4z4z','to_unicode_44i','to_unicode_8z8z','to_unicode_8zlz','to_unicode_lzlz']:
        add(f'test-tounicode.c:{i}',fn,0,pc,exp=x)
for i,e in enumerate(parse(open(T+'test-register.c','rb').read(),b'idna')):
    e=e+[0]*(5-len(e)); a,u,o,rc,fl=e
    add(f'test-register.c:{i}','register_u8',fl,u,a,exp=dict(kind='home',rc=rc,out=(o or b'').decode('latin1'),strict=True))
    if rc==0: add(f'test-register.c:{i}:lookup','lookup_u8',fl,u,exp=dict(kind='home',rc=0,out=o.decode('latin1'),strict=True))
for i,e in enumerate(parse(open(T+'test-punycode.c','rb').read(),b'punycode')):
    name,n,u,o,rc=e
    u=(u+[0]*100)[:n]
    V.append(dict(src=f'test-punycode.c:{i}',fn='puny_encode',flags=0,a='u'+','.join(map(str,u)),b='N',exp=dict(kind='home',rc=rc,out=o.decode('latin1'),strict=True)))
    V.append(dict(src=f'test-punycode.c:{i}',fn='puny_decode',flags=0,a=hx(o),b='N',exp=dict(kind='uni',rc=rc,u32=u)))
g=open(T+'test-glibc.c','rb').read()
def run(fname,enc):
    body=g[g.index(b'\n'+fname+b' (void)\n'):]; body=body[:body.index(b'\n}\n')]
    ts=list(tokens(body));i=0
    while i<len(ts):
        t=ts[i]
        if t.startswith(b'check_'):
            i+=2
            def st():
                nonlocal i
                s=b''
                while ts[i][:1]==b'"': s+=unesc(ts[i][1:-1]);i+=1
                return s
            a=st();i+=1
            if t.endswith(b'failure'): x=dict(kind='home',rc=consts[ts[i].decode()],out='',strict=True)
            else: x=dict(kind='home',rc=0,out=st().decode('latin1'),strict=True)
            add('test-glibc.c:'+enc,(b'lookup_ul' if b'lookup' in t else b'to_unicode_lzlz').decode()+('_latin1' if enc=='latin1' else ''),0,a,exp=x)
        i+=1
run(b'run_utf8_tests','utf8');run(b'run_latin1_tests','latin1')
json.dump(V,open('vectors.json','w'))
with open('vectors.txt','w') as f:
    for v in V: f.write(f"{v['fn']} {v['flags']} {v['a']} {v['b']}\n")
print(len(V)); import collections; print(collections.Counter(v['src'].split(':')[0] for v in V))
