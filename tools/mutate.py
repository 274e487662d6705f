"""Mutation testing: python3 mutate.py mutants.json [--log]
Each mutant: {"file","definition","old","new","claim","note"?}.  Works in /tmp/mut, never in /verif/lean.
A mutant counts as caught only if a theorem (not an example) stops proving."""
import json,re,subprocess,sys,os
SNAP=os.environ.get('SNAP','/verif/lean'); MUT='/tmp/mut/'
DECL=re.compile(r'^(?:@\[[^\]]*\]\s*)?(?:private\s+|protected\s+|noncomputable\s+)*(theorem|lemma|def|example|instance|abbrev|structure|inductive)\b\s*([^\s:({\[]*)')
def enclosing(path,line):
    ls=open(MUT+path).read().split('\n')
    for i in range(min(line,len(ls))-1,-1,-1):
        m=DECL.match(ls[i])
        if m: return m.group(1),m.group(2)
    return ('?','?')
TOP=re.compile(r'^(/--|/-!|@\[|theorem|lemma|def|example|instance|abbrev|structure|inductive|namespace|end|section|open|private|noncomputable|variable|set_option)')
def drop(path,line):
    ls=open(MUT+path).read().split('\n')
    i=min(line,len(ls))-1
    while i>=0 and not DECL.match(ls[i]): i-=1
    j=i+1
    while j<len(ls) and not TOP.match(ls[j]): j+=1
    ls[i]='example : True := trivial'
    for k in range(i+1,j): ls[k]=''
    open(MUT+path,'w').write('\n'.join(ls))
def run(m):
    subprocess.run('rm -rf /tmp/mut; cp -a '+SNAP+' /tmp/mut',shell=True,check=True)
    p=MUT+m['file']; s=open(p).read()
    n=s.count(m['old'])
    if n==0: return {'error':'old text not found'}
    if n>1 and not m.get('all'): return {'error':'old text found %d times'%n}
    open(p,'w').write(s.replace(m['old'],m['new']))
    failed=[]
    # A failing example stops the modules that import its file: remove it and go on, up to six times.
    for _ in range(6):
        r=subprocess.run(['lake','build'],cwd=MUT,capture_output=True,text=True)
        out=r.stdout+r.stderr
        errs=re.findall(r'^error: (Verif/\S+\.lean):(\d+):\d+',out,re.M); ex=[]
        for f,l in errs:
            k,nm=enclosing(f,int(l))
            key=(k,nm,f)
            if key not in failed: failed.append(key)
            if k=='example': ex.append((f,int(l)))
        if not errs or any(k!='example' for k,_,_ in failed): break
        for f,l in ex: drop(f,l)
    return {'rc':r.returncode,'failed':failed}
def main():
    ms=json.load(open(sys.argv[1])); log='--log' in sys.argv
    for i,m in enumerate(ms):
        r=run(m)
        if 'error' in r: print(i,m['definition'],'ERROR',r['error'],flush=True); continue
        thms=['%s (%s)'%(n,os.path.relpath(f,'Verif')) for k,n,f in r['failed'] if k in('theorem','lemma')]
        mod=[n for k,n,f in r['failed'] if k not in('theorem','lemma','example') and f==m['file']]
        ex=[f for k,n,f in r['failed'] if k=='example']
        oth=[n for k,n,f in r['failed'] if k not in('theorem','lemma','example') and f!=m['file']]
        verdict='INVALID(model does not compile)' if mod else 'KILLED(no result)' if r['rc'] and not r['failed'] else ('caught' if thms else ('ONLY-EXAMPLES' if r['failed'] else 'SURVIVED'))
        print(i,m['definition'],verdict,thms[:8],'ex:',len(ex),oth[:3],flush=True)
        if log and not mod and not verdict.startswith('KILLED'):
            open('/verif/seeded/LOG.jsonl','a').write(json.dumps({'definition':m['definition'],'file':m['file'],'edit':m['old']+'  ==>  '+m['new'],'claim':m['claim'],'result':verdict,'failed':thms,'tightened':m.get('tightened',[])})+'\n')
main()
