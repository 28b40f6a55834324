import sys
from img import run,golden
for name in sys.argv[1:]:
    w,h,px=golden(name); m=open(f'/tmp/conf/{name}.rgb','rb').read()
    print(name,w,h,len(px)==len(m))
    o=run('calls',f'/repo/sample_files/in/{name}','-',f'/tmp/conf/{name}.tab').stdout
    mask=set()
    for l in o.split('\n'):
        p=l.split()
        if l.startswith('END'): break
        if l.startswith('CHAR'):
            x,y,cw,ch=map(int,p[1:5]); x+=20
            for j in range(ch):
                for i in range(cw): mask.add((y+j)*w+x+i)
    d=[i//3 for i in range(0,len(px),3) if m[i:i+3]!=px[i:i+3]]
    d2=[i for i in d if i not in mask]
    print(len(mask),len(d),len(d2),[(i%w,i//w,tuple(px[3*i:3*i+3]),tuple(m[3*i:3*i+3])) for i in d2[:5]])
