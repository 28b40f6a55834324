#!/usr/bin/env python3
"""Seeded-bug runner: applies one textual edit to a model definition in a scratch copy, rebuilds the property
modules named, and appends the outcome to seeded/LOG.jsonl.  usage: mutate.py FILE.json  (list of edits)"""
import json,sys,subprocess,shutil,os,re
SRC='/verif/lean'; DST='/tmp/mut/lean'
def sync():
    os.makedirs(DST,exist_ok=True)
    subprocess.run(['rsync','-a','--delete',SRC+'/',DST+'/'],check=True) if shutil.which('rsync') else \
      (shutil.rmtree(DST,ignore_errors=True), shutil.copytree(SRC,DST,symlinks=True))
def enclosing(path,line):
    ls=open(path).read().split('\n')
    for i in range(min(line,len(ls))-1,-1,-1):
        m=re.match(r'(?:private )?(theorem|example|def|lemma)\s*(\S*)',ls[i])
        if m: return m.group(2) if m.group(1)!='example' else f'example@{os.path.basename(path)}:{i+1}'
    return '?'
def main():
    muts=json.load(open(sys.argv[1])); sync()
    for m in muts:
        p=f'{DST}/Verif/{m["file"]}'; s=open(p).read()
        if s.count(m['old'])!=1: print('BAD EDIT',m['definition'],s.count(m['old'])); continue
        open(p,'w').write(s.replace(m['old'],m['new']))
        r=subprocess.run(['timeout','1500','lake','build']+['Verif.'+t for t in m['targets']],cwd=DST,capture_output=True,text=True)
        out=r.stdout+r.stderr
        errs=[]
        for f,l in re.findall(r'error: (Verif/\S+?\.lean):(\d+):',out):
            e=enclosing(f'{DST}/{f}',int(l))
            if e not in errs: errs.append(e)
        notbuilt=re.findall(r'^- (\S+)',out,re.M)
        open(p,'w').write(s)
        rec={'definition':m['definition'],'edit':f"{m['old'].strip()}  ==>  {m['new'].strip()}",'claim':m['claim'],
             'theorems_failed':errs,'modules_failed':notbuilt,'theorems_tightened':m.get('tightened',[]),'caught':r.returncode!=0}
        open('/tmp/mut/log.jsonl','a').write(json.dumps(rec)+'\n')
        print(m['definition'],'CAUGHT' if r.returncode else 'SURVIVED',errs[:4],flush=True)
main()
