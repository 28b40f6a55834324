import sys,re,base64,zlib,difflib
def decode_png(b):
    assert b[:8]==b'\x89PNG\r\n\x1a\n'
    i=8; idat=b''; 
    while i<len(b):
        n=int.from_bytes(b[i:i+4],'big'); t=b[i+4:i+8]; d=b[i+8:i+8+n]; i+=12+n
        if t==b'IHDR': w=int.from_bytes(d[:4],'big'); h=int.from_bytes(d[4:8],'big'); depth,ct=d[8],d[9]
        if t==b'IDAT': idat+=d
    bpp={6:4,2:3}[ct]
    raw=zlib.decompress(idat); st=w*bpp; out=bytearray(); prev=bytearray(st); p=0
    for y in range(h):
        f=raw[p]; line=bytearray(raw[p+1:p+1+st]); p+=1+st
        for x in range(st):
            a=line[x-bpp] if x>=bpp else 0; bb=prev[x]; c=prev[x-bpp] if x>=bpp else 0
            if f==1: line[x]=(line[x]+a)&255
            elif f==2: line[x]=(line[x]+bb)&255
            elif f==3: line[x]=(line[x]+(a+bb)//2)&255
            elif f==4:
                pa=abs(bb-c); pb=abs(a-c); pc=abs(a+bb-2*c)
                pr=a if pa<=pb and pa<=pc else bb if pb<=pc else c
                line[x]=(line[x]+pr)&255
        out+=line; prev=line
    return w,h,bytes(out)
if __name__=='__main__':
    name=sys.argv[1]
    g=open(f'/repo/sample_files/out/html/{name}.html',newline='').read().replace('\r\n','\n')
    def sub(m):
        w,h,px=decode_png(base64.b64decode(m.group(1)+'='*(-len(m.group(1))%4)))
        return f"base64, PNG{w}x{h}:{px.hex()}"
    g=re.sub(r"base64, ?([A-Za-z0-9+/=]+)",sub,g)
    m=open(f'/tmp/conf/{name}.html',newline='').read()
    print(name, 'EQUAL' if g==m else 'differ', len(g),len(m))
    if g!=m:
        sp=lambda s: re.sub(r'>',">\n",s).split('\n')
        n=0
        for l in difflib.unified_diff(sp(g),sp(m),lineterm='',n=0):
            print(l[:200]); n+=1
            if n>int(sys.argv[2]) if len(sys.argv)>2 else 30: break
