#!/usr/bin/env python3
"""Transcribes the decoder tables of thermal_parser/src/decoder into lean/Verif/Model/Codepages.lean."""
import re, sys
D='/repo/thermal_parser/src/decoder/'
def lits(src):
    out=[]
    for m in re.finditer(r'"((?:[^"\\]|\\.)*)"', src):
        s=m.group(1); r=''; i=0
        while i<len(s):
            if s[i]=='\\':
                if s[i+1]=='u':
                    j=s.index('}',i); r+=chr(int(s[i+3:j],16)); i=j+1
                else:
                    r+={'"':'"','\\':'\\','n':'\n','t':'\t','r':'\r','0':'\0',"'":"'"}[s[i+1]]; i+=2
            else: r+=s[i]; i+=1
        out.append(r)
    return out
def lstr(s): return '['+', '.join('Char.ofNat 0x%X'%ord(c) for c in s)+']'
def short(s): return '['+', '.join('u 0x%X'%ord(c) for c in s)+']'
out=['import Verif.Model.Str','/-','Decoder tables of thermal_parser/src/decoder/, transcribed by tools/gen_codepages.py.  Each entry is a Rust `&str`',
'given by its Unicode scalar values.','-/','namespace Thermal','','/-- The character with this scalar value. -/','abbrev u (n : Nat) : Char := Char.ofNat n','']
pages=[('base','codepage_base.rs'),('437','codepage_0_437.rs'),('Katakana','codepage_1_katakana.rs'),('850','codepage_2_pc850.rs'),('860','codepage_3_pc860.rs'),
('863','codepage_4_pc863.rs'),('865','codepage_5_pc865.rs'),('851','codepage_11_pc851.rs'),('853','codepage_12_pc853.rs'),('857','codepage_13_pc857.rs')]
for n,f in pages:
    t=open(D+f,encoding='utf-8').read()
    body=t[t.index('pub static TABLE'):]
    # drop comments
    body='\n'.join(l for l in body.split('\n') if not l.strip().startswith('//'))
    L=lits(body); name,ent=L[0],L[1:]
    assert len(ent)==128,(f,len(ent))
    a=t[:t.index('pub static TABLE')].count('\n')+1; b=t.rstrip('\n').count('\n')+1
    out.append('/-- decoder/%s:%d-%d (%s) -/'%(f,a,b,name))
    out.append('def table%s : List Str :='%n.capitalize() if n=='base' else 'def table%s : List Str :='%n)
    rows=[]
    for i in range(0,128,8): rows.append('    '+', '.join(short(e) for e in ent[i:i+8]))
    out.append('  [\n'+',\n'.join(rows)+' ]\n')
t=open(D+'international.rs',encoding='utf-8').read()
for m in re.finditer(r'pub static (\w+): Language = \(\s*"([^"]*)",\s*&\[(.*?)\],?\s*\);', t, re.S):
    a=t[:m.start()].count('\n')+1; b=t[:m.end()].count('\n')+1
    prs=re.findall(r'\(\s*(0x[0-9A-Fa-f]+)\s*,\s*("(?:[^"\\]|\\.)*")\s*,?\s*\)', m.group(3))
    out.append('/-- decoder/international.rs:%d-%d (%s) -/'%(a,b,m.group(2)))
    out.append('def lang%s : List (Byte × Str) :='%m.group(1).title().replace('_',''))
    out.append('  ['+', '.join('(%s, %s)'%(p, short(lits(s)[0])) for p,s in prs)+']\n')
    print(m.group(1),len(prs), m.group(3).count('0x'), file=sys.stderr)
out.append('end Thermal')
open('/verif/lean/Verif/Model/Codepages.lean','w',encoding='utf-8').write('\n'.join(out)+'\n')
