from cmp import decode_png
for n in ['page_mode','page_mode_debug']:
    w,h,px=decode_png(open(f'/repo/sample_files/out/img/{n}.thermal.png','rb').read())
    e=open(f'/tmp/conf/{n}.empty.tab.rgb','rb').read(); s=open(f'/tmp/conf/{n}.solid.rgb','rb').read()
    mask=out=inn=0; rows=set(); ex=[]
    for i in range(0,len(px),3):
        if s[i:i+3]!=e[i:i+3]: mask+=1; inn+= px[i:i+3]!=e[i:i+3]
        elif px[i:i+3]!=e[i:i+3]: out+=1; ex.append(((i//3)%w,(i//3)//w,tuple(px[i:i+3]),tuple(e[i:i+3])))
    print(n,w*h,'mask',mask,'differ in mask',inn,'outside',out,ex[:10])
