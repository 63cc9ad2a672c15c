import sys, os, re, subprocess, json, shutil, importlib.util
SRC='/verif/lean'; DST='/tmp/mut/lean'
def sync():
    subprocess.run(['rsync','-a','--delete',SRC+'/',DST+'/'],check=True) if shutil.which('rsync') else (shutil.rmtree(DST,ignore_errors=True), subprocess.run(['cp','-a',SRC,DST],check=True))
def enclosing(path,line):
    ls=open(path).read().split('\n')
    for i in range(line-1,-1,-1):
        m=re.match(r'(?:private |protected |noncomputable |@\[[^\]]*\] )*(theorem|lemma|def|example|instance|structure|inductive)\b ?([^\s:({\[]*)',ls[i])
        if m:
            return (m.group(1)+'@%d'%(i+1)) if m.group(1)=='example' else (m.group(2) or m.group(1)+'@%d'%(i+1))
    return '?'
def main(fn, start=0):
    spec=importlib.util.spec_from_file_location('m',fn); m=importlib.util.module_from_spec(spec); spec.loader.exec_module(m)
    sync()
    out=open(fn.replace('.py','.out'),'a')
    for k,mu in enumerate(m.M):
        if k<start: continue
        mod,dfn,old,new,claim,targets=mu
        p=DST+'/Verif/%s.lean'%mod; orig=open(p).read()
        if orig.count(old)<1: print(k,'NOTFOUND',dfn,repr(old)); continue
        # occurrence: after the definition name
        i=orig.index('def '+dfn) if ('def '+dfn) in orig else (orig.index(dfn) if dfn in orig else 0)
        try: j=orig.index(old,i)
        except ValueError: j=orig.index(old)
        open(p,'w').write(orig[:j]+new+orig[j+len(old):])
        try:
            r=subprocess.run(['lake','build']+['Verif.'+t for t in targets],cwd=DST,capture_output=True,text=True,timeout=1500)
            txt=r.stdout+r.stderr
        except subprocess.TimeoutExpired: txt='TIMEOUT'
        failed=[]
        for mm in re.finditer(r'error: (?:\./)?(Verif/\w+\.lean):(\d+):',txt):
            n=enclosing(DST+'/'+mm.group(1),int(mm.group(2)))
            n=mm.group(1)[6:-5]+'.'+n
            if n not in failed: failed.append(n)
        notbuilt=[t for t in targets if ('- Verif.'+t) in txt]
        print(k,dfn,'|',old.strip()[:50],'->',new.strip()[:50],'|',claim[:60],'|| FAILED' if failed else '|| SURVIVED',failed, flush=True)
        out.write(json.dumps(dict(definition=dfn,module=mod,edit=old.strip()+'  ->  '+new.strip(),claim=claim,theorems_failed=failed,theorems_tightened=[]))+'\n'); out.flush()
        open(p,'w').write(orig)
main(sys.argv[1], int(sys.argv[2]) if len(sys.argv)>2 else 0)
