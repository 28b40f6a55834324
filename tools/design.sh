#!/bin/sh
# writes DESIGN.md from tools/design_body.md, design_props.txt and findings.md
cd /verif && python3 - <<'P'
s=open('tools/design_body.md').read()
s+="| property | model and proof |\n|---|---|\n"
for l in open('tools/design_props.txt'):
    a,b=l.rstrip('\n').split(' | ',1); s+=f"| {a} | {b} |\n"
s+="\n## 4. Findings\n\nWhere the code does not do what a user would expect; found while stating and proving the properties. C-numbers name the theorem that shows it, where there is one.\n\n"
s+=open('tools/findings.md').read()
open('DESIGN.md','w').write(s)
P
