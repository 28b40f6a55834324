import re,base64
from cmp import decode_png
for n in ['discount','page_mode','page_mode_debug']:
    g=open(f'/repo/sample_files/out/html/{n}.thermal.html',newline='').read().replace('\r\n','\n')
    e=open(f'/tmp/conf/{n}.empty.tab.html',newline='').read(); s=open(f'/tmp/conf/{n}.solid.html',newline='').read()
    R=r"base64, ?[A-Za-z0-9+/=:]+"
    print(n,'outside pictures', 'EQUAL' if re.sub(R,'@',g)==re.sub(R,'@',e)==re.sub(R,'@',s) else 'differ')
    G=[decode_png(base64.b64decode(x+'='*(-len(x)%4))) for x in re.findall(r"base64, ?([A-Za-z0-9+/=]+)",g)]
    P=lambda m:[(int(a),int(b),bytes.fromhex(c)) for a,b,c in re.findall(r"PNG(\d+)x(\d+):([0-9a-f]*)",m)]
    for a,b,c in zip(G,P(e),P(s),strict=True):
        assert a[:2]==b[:2]==c[:2]; w=a[0]
        mask=inn=0; out=[]
        for i in range(0,len(a[2]),4):
            if b[2][i:i+4]!=c[2][i:i+4]: mask+=1; inn+= a[2][i:i+4]!=b[2][i:i+4]
            elif a[2][i:i+4]!=b[2][i:i+4]: out.append(((i//4)%w,(i//4)//w,tuple(a[2][i:i+4]),tuple(b[2][i:i+4])))
        print(' ',a[:2],'mask',mask,'differ in mask',inn,'outside',len(out),out[:6])
