"""Writes lean/Verif/Model/HtmlTemplate.lean from resources/templates/thermal.html."""
t=open('/repo/thermal_renderer/resources/templates/thermal.html').read()
q=lambda s: '"'+s.replace('\\','\\\\').replace('"','\\"')+'"'
p='/verif/lean/Verif/Model/HtmlTemplate.lean'
s=open(p).read()
a=s.index('  ["<!DOCTYPE'); b=s.index('\n\n/-- The lines with')
open(p,'w').write(s[:a]+'  ['+",\n   ".join(q(l) for l in t.split('\n'))+']'+s[b:])
