"""Compares the generated tables of the model with the text of /repo, independently of gen.py."""
import re
src=open('/repo/ublox/src/ubx_packets/packets.rs').read()
# strip comments
src=re.sub(r'//[^\n]*','',src)
gen=open('/verif/lean/Verif/Model/GenPackets.lean').read()
S={}
for m in re.finditer(r'#\[ubx_packet_(recv_send|recv|send)\]\s*#\[ubx\(([^)]*)\)\]\s*(?:#\[[^\]]*\]\s*)*(?:pub )?struct (\w+)\s*\{',src):
    kind,attr,name=m.groups()
    i=m.end(); depth=1; j=i
    while depth: 
        c=src[j]; depth+= c=='{'; depth-= c=='}'; j+=1
    body=src[i:j-1]
    fields=[]
    for fm in re.finditer(r'((?:#\[ubx\((?:[^()]|\([^()]*\))*\)\]\s*)?)(\w+)\s*:\s*(\[u8;\s*\d+\]|\[u8;\s*0\]|\w+)\s*,',body):
        fields.append((fm[2],re.sub(r'\s','',fm[3]),re.sub(r'\s+',' ',fm[1]).strip()))
    def num(k):
        x=re.search(k+r'\s*=\s*(0x[0-9a-fA-F]+|\d+)',attr); return int(x[1],0) if x else None
    S[name]=(kind,num('class'),num(r'\bid'),num('fixed_payload_len'),num('max_payload_len'),'default_for_builder' in attr,fields)
G={}
for m in re.finditer(r'\{ name := "(\w+)", kind := \.(\w+), cls := (\w+), id := (\w+), payloadLen := \.(\w+) (\d+), defaultForBuilder := (\w+),\s*fields := \[(.*?)\] \}',gen,re.S):
    fs=[]
    for fm in re.finditer(r'\{ name := "(\w+)", ty := \.(\w+(?: \d+)?)(.*?)\}(?:,\n|$)',m[8]+'\n',re.S):
        fs.append((fm[1],fm[2],fm[3]))
    G[m[1]]=(m[2],int(m[3],0),int(m[4],0),int(m[6]) if m[5]=='fixed' else None,int(m[6]) if m[5]=='max' else None,m[7]=='true',fs)
print(len(S),len(G),set(S)^set(G))
km={'recv':'recv','send':'send','recv_send':'recvSend'}
for n in S:
    if n not in G: continue
    a,b=S[n],G[n]
    if (km[a[0]],)+a[1:6]!=b[:6]: print('HDR',n,a[:6],b[:6])
    if len(a[6])!=len(b[6]): print('NF',n,len(a[6]),len(b[6]),[x[0] for x in a[6]],[x[0] for x in b[6]]); continue
    for x,y in zip(a[6],b[6]):
        t=x[1]
        mm=re.match(r'\[u8;(\d+)\]',t)
        t2=('tail' if mm and mm[1]=='0' else f'bytes {mm[1]}') if mm else t
        if x[0]!=y[0] or t2!=y[1]: print('F',n,x,y)
        at=x[2]; g=y[2]
        # attributes
        def has(k): return re.search(r'\b'+k+r'\b',at) is not None
        if has('may_fail')!=('mayFail := true' in g): print('MF',n,x,y)
        if has('get_as_ref')!=('getAsRef := true' in g): print('REF',n,x,y)
        if has('map_type')!=('map :=' in g): print('MAP',n,x,y)
        if has('size_fn')!=('sizeFn :=' in g): print('SZ',n,x,y)
        al=re.search(r'alias = (\w+)',at); ga=re.search(r'alias := some "(\w+)"',g)
        if (al and al[1])!=(ga and ga[1]): print('AL',n,x,y)
        sc=re.search(r'scale = ([0-9.e+-]+)',at); gs=re.search(r'scale := some \(mkRat (-?\d+) (\d+)\)',g)
        if bool(sc)!=bool(gs): print('SC?',n,x,y)
        elif sc:
            from fractions import Fraction
            if Fraction(sc[1].rstrip('.'))!=Fraction(int(gs[1]),int(gs[2])): print('SC',n,x,y)
        mt=re.search(r'map_type = ([\w<>&\'\[\]: ]+)',at); gm=re.search(r'map := some \((.*?)\)(?:,|\s*$| )',g)
        if mt: MAPS=globals().setdefault('MAPS',set()); MAPS.add((mt[1].strip(),gm and gm[1]))
for x in sorted(MAPS,key=str): print(x)

raw=open('/repo/ublox/src/ubx_packets/packets.rs').read()
src=re.sub(r'//[^\n]*','',raw)
gt=open('/verif/lean/Verif/Model/GenTypes.lean').read()
E={}
for m in re.finditer(r'#\[ubx_extend\]\s*#\[ubx\(([^)]*)\)\](.*?)enum (\w+)\s*\{(.*?)\n\}',src,re.S):
    a=[x.strip() for x in m[1].split(',')]
    E[m[3]]=(a,[(v[1],int(v[2],0)) for v in re.finditer(r'(\w+)\s*=\s*(0x[0-9a-fA-F]+|\d+)',m[4])])
G={}
for m in re.finditer(r'\{ name := "(\w+)", fromFn := (.*?), rest := (.*?), intoRaw := (\w+),\s*variants := \[(.*?)\] \}',gt,re.S):
    G[m[1]]=(m[2],m[3],m[4],[(v[1],int(v[2],0)) for v in re.finditer(r'\("(\w+)", (\w+)\)',m[5])])
print(len(E),len(G),set(E)^set(G))
for n in E:
    a,v=E[n]; g=G[n]
    f='some .from' if 'from' in a else ('some .fromUnchecked' if 'from_unchecked' in a else 'none')
    r='some .reserved' if 'rest_reserved' in a else ('some .errorProne' if 'rest_error' in a else 'none')
    if (f,r,'true' if 'into_raw' in a else 'false',v)!=g: print(n,f,r,a,v,g)
F={}
for m in re.finditer(r'#\[ubx_extend_bitflags\]\s*#\[ubx\(([^)]*)\)\]\s*bitflags!\s*\{(.*?)struct (\w+)\s*:\s*(\w+)\s*\{(.*?)\n\s*\}\s*\n\}',src,re.S):
    a=[x.strip() for x in m[1].split(',')]
    def ev(x):
        return int(eval(x.replace('_','') if re.match(r'^0[xb]',x.strip()) else x))
    F[m[3]]=(a,m[4],[(v[1],ev(v[2])) for v in re.finditer(r'const (\w+)\s*=\s*([^;]+);',m[5])])
H={}
for m in re.finditer(r'\{ name := "(\w+)", nbits := (\d+), from_ := (\w+), intoRaw := (\w+),\s*consts := \[(.*?)\] \}',gt,re.S):
    H[m[1]]=('u'+m[2],m[3],m[4],[(v[1],int(v[2],0)) for v in re.finditer(r'\("(\w+)", (\w+)\)',m[5])])
print(len(F),len(H),set(F)^set(H))
for n in F:
    a,t,c=F[n]; h=H.get(n)
    if h and (t,'true' if 'from' in a else 'false','true' if 'into_raw' in a else 'false',c)!=h: print(n,a,t,c,h)
    if 'rest_reserved' not in a and 'rest_error' not in a: print('norest',n,a)
cv=open('/repo/ublox/src/ubx_packets/cfg_val.rs').read()
gc=open('/verif/lean/Verif/Model/GenCfgVal.lean').read()
i=cv.index('cfg_val! {')
items=[(m[1],int(m[2].replace('_',''),16),m[3]) for m in re.finditer(r'^\s*(\w+),\s*(0x[0-9a-fA-F_]+),\s*(\w+)',re.sub(r'//[^\n]*','',cv[i:]),re.M)]
its=[(m[1],int(m[2],16),m[3]) for m in re.finditer(r'⟨"(\w+)", (0x[0-9a-f]+), \.(\w+)⟩',gc)]
print(len(items),len(its)); 
print({(a[2],b[2]) for a,b in zip(items,its)}); print([ (a,b) for a,b in zip(items,its) if a[:2]!=b[:2]])
# dispatch list
k=src.index('define_recv_packets!'); k=src.index('{',src.index('enum',k)); 
body=src[k:src.index('}\n',k)]
print(body[:200])
names=re.findall(r"\w+",body)[2:]
gp=open('/verif/lean/Verif/Model/GenPackets.lean').read()
r=re.findall(r'(\w+)_\b',gp[gp.index('def recvPackets'):].split('def ')[1])
print(len(names),len(r)); 
print([(a,b) for a,b in zip(names,r) if a.lower()!=b.lower()][:5])
