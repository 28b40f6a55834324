import sys,os,subprocess
from cmp import decode_png
B='/tmp/conf/proj/.lake/build/bin/run'
def golden(name):
    return decode_png(open(f'/repo/sample_files/out/img/{name}.png','rb').read())
def run(*a): return subprocess.run([B,*a],capture_output=True,text=True,timeout=1500)
def extract(names):
    tab={}; bad=0; n=0
    for name in names:
        t=f'/tmp/conf/{name}.tab'
        if not os.path.exists(t): open(t,'w')
        o=run('calls',f'/repo/sample_files/in/{name}','-',t).stdout
        w,h,px=golden(name)
        cov={}; cells=[]
        for l in o.split('\n'):
            p=l.split()
            if l.startswith('COV'): cov.setdefault(int(p[2]),int(p[1]))
            if l.startswith('END'): break
            if l.startswith('CHAR'): cells.append((*map(int,p[1:5]),p[5]=='true',' '.join(p[6:])))
        times={}
        for x,y,cw,ch,pl,k in cells:
            for j in range(ch):
                for i in range(cw): times[(x+i,y+j)]=times.get((x+i,y+j),0)+1
        for x,y,cw,ch,pl,k in cells:
            if not pl or any(times[(x+i,y+j)]>1 for j in range(ch) for i in range(cw)): continue
            x+=20
            if x+cw>w-20 or y+ch>h: continue
            cell=[px[3*((y+j)*w+x+i)] for j in range(ch) for i in range(cw)]
            if any(v not in cov for v in cell): bad+=1; continue
            c=bytes(cov[v] for v in cell); n+=1
            tab.setdefault(k,{}).setdefault((cw,c),[]).append((name,x-20,y))
    return tab,n,bad
if __name__=='__main__':
    names=sys.argv[1:]
    tab,n,bad=extract(names)
    multi={k:v for k,v in tab.items() if len(v)>1}
    print('cells',n,'glyphs',len(tab),'ambiguous',len(multi),'bad',bad)
    for k,v in list(multi.items())[:5]: print(k,[ (len(b),b[:2]) for b in v.values()])
    with open('/tmp/conf/glyphs.tab','w') as f:
        for k,v in tab.items():
            (cw,c),_=max(v.items(),key=lambda q:len(q[1]))
            f.write(f'{k}|{cw}|{c.hex()}\n')
    known={l.split('|')[0] for l in open('/tmp/conf/glyphs.tab')}
    for name in names:
        try: r=run('image',f'/repo/sample_files/in/{name}',f'/tmp/conf/{name}.rgb',f'/tmp/conf/{name}.tab','/tmp/conf/glyphs.tab')
        except subprocess.TimeoutExpired: print(name,'TIMEOUT',flush=True); continue
        if r.returncode!=0: print(name,'FAILED',r.returncode,r.stderr[-300:],flush=True); continue
        w,h,px=golden(name)
        m=open(f'/tmp/conf/{name}.rgb','rb').read()
        o=run('calls',f'/repo/sample_files/in/{name}','-',f'/tmp/conf/{name}.tab').stdout
        mask=set(); nc=nm=0
        for l in o.split('\n'):
            p=l.split()
            if l.startswith('END'): break
            if l.startswith('CHAR'):
                nc+=1
                x,y,cw,ch=map(int,p[1:5]); k=' '.join(p[6:]); x+=20
                if k in known or p[-1]=='32' and False: continue
                nm+=1
                for j in range(ch):
                    for i in range(cw): mask.add((y+j)*w+x+i)
        if len(m)!=len(px): print(name,'SIZE',r.stderr.strip().split('\n')[-2:],(w,h),flush=True); continue
        d=[i//3 for i in range(0,len(m),3) if m[i:i+3]!=px[i:i+3]]
        d2=[i for i in d if i not in mask]
        print(name,r.stderr.strip().split('\n')[-2:],(w,h),'EQUAL' if not d else 'EQUAL-OUTSIDE-MASK' if not d2 else 'DIFFER',f'chars {nc} masked {nm} dots {w*h} masked {len(mask)} differ {len(d)} outside {len(d2)}',[(i%w,i//w,tuple(m[3*i:3*i+3]),tuple(px[3*i:3*i+3])) for i in d2[:4]],flush=True)
