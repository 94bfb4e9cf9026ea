"""Character data for driver.txt from ucd0.txt (ucd.pl) and unicodedata."""
import unicodedata as U
bid={'L':0,'R':1,'AL':2,'AN':3,'EN':4,'ES':5,'CS':6,'ET':7,'ON':8,'BN':9,'NSM':10}
jt={'U':0,'T':1,'C':2,'L':3,'R':4,'D':5}
sc={'Greek':0,'Hebrew':1,'Hiragana':2,'Katakana':3,'Han':4}
N=0x110000
A={k:bytearray(N) for k in('Bidi_Class','Joining_Type','Script','General_Category','Canonical_Combining_Class')}
for l in open('ucd0.txt'):
    p,a,b,v=l.split(); a=int(a);b=int(b)
    x={'Bidi_Class':lambda v:bid.get(v,11),'Joining_Type':lambda v:jt[v],'Script':lambda v:sc.get(v,5),'General_Category':lambda v:1 if v[0]=='M' else 0,'Canonical_Combining_Class':int}[p](v)
    A[p][a:b+1]=bytes([x])*(b+1-a)
with open('ucd.bin','wb') as f:
    for k in('Bidi_Class','Joining_Type','Script','General_Category','Canonical_Combining_Class'): f.write(A[k])
with open('nfc.txt','w') as f:
    for c in range(N):
        if 0xD800<=c<0xE000: continue
        d=U.normalize('NFD',chr(c))
        if d!=chr(c): f.write('D %d %s\n'%(c,','.join(str(ord(x)) for x in d)))
        e=U.decomposition(chr(c))
        if e and e[0]!='<':
            e=[int(x,16) for x in e.split()]
            if len(e)==2 and U.normalize('NFC',chr(e[0])+chr(e[1]))==chr(c): f.write('C %d %d %d\n'%(e[0],e[1],c))
    # hangul
    for l in range(19):
        for v in range(21): f.write('C %d %d %d\n'%(0x1100+l,0x1161+v,0xAC00+(l*21+v)*28))
    for lv in range(399):
        for t in range(1,28): f.write('C %d %d %d\n'%(0xAC00+lv*28,0x11A7+t,0xAC00+lv*28+t))
