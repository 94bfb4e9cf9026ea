"""Compare the answers of the model with what the test programs expect, as they compare."""
import json,sys,re
V=json.load(open('vectors.json'))
R={}
for fn in sys.argv[1:]:
    for l in open(fn):
        m=re.match(r'(\d+) (.*)',l)
        if m: R[int(m.group(1))]=m.group(2)
bad=0;ok=0;skip=0
for i,v in enumerate(V):
    if i not in R: continue
    r=R[i]; x=v['exp']
    if r=='skip': skip+=1;continue
    if r=='UB': print('UB',v);bad+=1;continue
    rc,o=r.split(' ',1); rc=int(rc)
    l=[int(t) for t in re.findall(r'\d+',o)] if o.startswith('[') else None
    good=True
    if x['kind']=='home':
        s=None if l is None else bytes(l).decode('latin1')
        if rc!=x['rc']:
            good = (rc==-200 and not x.get('strict')) or (x['rc']==-1 and (rc!=0 or s==x['out']))
        elif rc==0: good= s==x['out']
    elif x['kind']=='utc':
        s=None if l is None else bytes(l).decode('latin1')
        if rc and x['nv']: pass
        elif rc and not x['tr'] and x['out'][:1]!='[': good=False
        elif rc==0 and not x['tr'] and x['out'][:1]!='[' and s!=x['out']: good=False
    else:
        if rc!=x['rc']: good = rc==-102 and x['rc']==-200
        elif rc==0:
            if v['fn'] in('to_unicode_8z8z','to_unicode_8zlz','to_unicode_lzlz'): l=[ord(c) for c in bytes(l).decode('utf-8')]
            good= l==x['u32']
    if good: ok+=1
    else: bad+=1; print('BAD',v,r[:200], bytes(l) if l and max(l)<256 else '')
print(ok,'ok',bad,'bad',skip,'skip')
