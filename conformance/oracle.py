
# the symbols in a golden document, for the requests in order
import sys,re,math
g=open(sys.argv[1]).read(); reqs=[l.rstrip('\n')[4:] for l in open(sys.argv[2]) if l.startswith('REQ ')]
svgs=re.findall(r"<svg.*?</svg>",g,re.S); out=[]
mine=re.findall(r"<svg.*?</svg>",open(sys.argv[4]).read(),re.S)
svgs=[x for x in svgs if x not in mine]
assert len(svgs)==len(reqs),(len(svgs),len(reqs))
for r,s in zip(reqs,svgs):
    rects=[tuple(map(int,x)) for x in re.findall(r"<rect width='(\d+)' height='(\d+)' x='(\d+)' y='(\d+)'",s)]
    w=rects[0][0]
    if r.startswith('QR|'):
        n=max(x//w for _,_,x,_ in rects)+1; on={(x//w,y//w) for _,_,x,y in rects}
        bits=''.join('1' if (x,y) in on else '0' for y in range(n) for x in range(n))
    else:
        n=max(x//w for _,_,x,_ in rects)+1; on={x//w for _,_,x,_ in rects}
        bits=''.join('1' if x in on else '0' for x in range(n))
    out.append(r+'|'+bits)
open(sys.argv[3],'w').write('\n'.join(out)+'\n')
