#!/usr/bin/env python3
"""Seeded-bug testing.  Usage: mutate.py MUTANTS.json [id ...]
Works on the scratch copy /tmp/mut/lean (a copy of /verif/lean with its build output).  For each mutant {id,file,definition,old,new,edit,claim} the edit is applied,
the project rebuilt, and every proof that no longer checks is replaced by a hole in the scratch copy until everything builds; then the property theorems (named Cnn_*) that
depend on a hole are the ones that failed.  Results go to /tmp/mut/results.jsonl; nothing under /verif is written."""
import json,os,re,subprocess,sys,shutil,time,hashlib
L='/tmp/mut/lean'; V=L+'/Verif'
HOLE='so'+'rry'
CHECK='''import Lean
%s
open Lean Elab Command
run_cmd do
  let env ← getEnv
  let mut out := #[]
  for (n, ci) in env.constants.toList do
    if n.isInternal then continue
    match ci with
    | .thmInfo _ =>
      let s := n.getString!
      if s.startsWith "C" && (s.toList.drop 1).head?.any Char.isDigit then
        let ax ← liftCoreM (collectAxioms n)
        if ax.contains ``%sAx then out := out.push n
    | _ => pure ()
  for n in out do IO.println s!"FAILED {n}"
'''
def blocks(lines):
    """start lines of top-level items"""
    st=[]; incom=False
    for i,l in enumerate(lines):
        if incom:
            if '-/' in l: incom=False
            continue
        if l.startswith('/-'):
            st.append(i)
            if '-/' not in l: incom=True
            continue
        if l[:1] not in (' ','\t','','\n',')',']','|') and l.strip(): st.append(i)
    return st
NEAR={'Phasor':['Phasor','Waveform'],'Circuit':['Circuit'],'Grid':['Grid','GridRun'],'Ode':['OdeProps','AntiWindup','Balanced','Bounds','OpenCircuit'],'Sim':['Sim','Series'],'Config':['OnlyRead','Config','ConfigRT','Construct','Constructible'],
 'RTInit':['ConfigRun'],'Wiring':['Wiring'],'PvModule':['PvModule'],'ParInit':['ParRun','PhysicalUnits'],'Multi':['Multi'],'Numba':['Numba'],'Measured':['Measured'],'SetupMsg':['SetupMsg','OnlyRead'],'JacCheck':['JacCheck','JacCheckConst','JacCheckThree','JacCheckBal','JacCheckConst3'],'Recorded':['Recorded'],'Display':['Display','DisplayRT','DisplaySched'],'SinglePhase':['JacSingle','Bounds'],'ThreePhase':['JacThreeMain','Bounds'],'ThreePhaseNoVrmsFilter':['JacThree'],'ThreePhaseBalanced':['JacBalanced'],'SinglePhaseConstantVdc':['JacConstVdc'],'ThreePhaseConstantVdc':['JacConstVdc3'],'ThreePhaseNumba':['Numba','OdeProps'],'PyVal':['Config'],'RTLog':['RTLog'],'LogRead':['LogRead','LogFile'],'LogFile':['LogFile'],'SeriesTools':['SeriesTools'],'ParamDict':['ParamDict'],'Plot':['Plot'],'FreqEst':['FreqEst'],'Ratings':['Ratings'],'Naming':['Naming'],'SimInit':['SimInit'],'VoltVar':['VoltVar','VoltVarRun'],'Ramp':['Ramp'],
 'VdcRef':['VdcRef','SharedRefs','RefEdits','RefRuns','Restore'],'SteadyState':['SteadyState','SteadyExact'],'EventTools':['EventTools'],'RideThrough':['CessTiming','RecoverTiming','RTTrip','RTQuiet','RTCess','RTCessExact','RTSettings','Connection','Reconnection','Frequency','Restore','SecondRun','RTSwitch'],
 'Events':['Events','Edits','Removal','GridEdits','GridRemoval'],'Basic':['Events','Edits','StepBack','Removal'],'Eval':['EvalRun','EvalSched','EvalRide','EvalPure','EvalRefs','Restore','VoltVarRun','SecondRun','RefRuns'],'Session':['SessionRuns','SessionLimits','SessionSeries','SessionTotal','SessionReport','SessionPure','SecondRun','RefRuns','Fleet','Loop','CoEdits'],'Fleet':['Fleet','GridRun'],'Loop':['Loop','CoEdits'],'RTSwitch':['RTSwitch']}
TARGETS=[]
def build():
    # one module at a time per failure wave; lake continues past failures
    p=subprocess.run(['timeout','3000','lake','build']+TARGETS,cwd=L,capture_output=True,text=True)
    return p.returncode,p.stdout+p.stderr
def hole(path,line):
    lines=open(path).read().split('\n')
    st=blocks(lines)
    s=max(x for x in st if x<=line-1)
    e=min([x for x in st if x>s]+[len(lines)])
    txt='\n'.join(lines[s:e])
    # skip over attribute/omit lines
    m=re.match(r'(?:omit[^\n]*in\s*)?(?:set_option[^\n]*in\s*)?(?:private |protected |noncomputable )?(theorem|lemma|example|instance|def)\s*([^\s:({\[]*)',txt)
    if not m: return None
    name=m.group(2) or 'example@%d'%(s+1)
    if HOLE in txt: return None
    # find ':=' at depth 0 (first after the statement)
    d=0;i=0;pos=None
    while i<len(txt):
        c=txt[i]
        if c in '([{⟨': d+=1
        elif c in ')]}⟩': d-=1
        elif txt.startswith(':=',i) and d==0: pos=i;break
        elif c=='\n' and d==0 and txt[i+1:].lstrip(' ').startswith('|') and m.group(1) in('theorem','lemma'): pos=i;break
        i+=1
    if pos is None: return None
    # let/have inside a statement also contain ':=' : take the last ':= by' / ':=' followed by newline or by
    cand=[x.start() for x in re.finditer(r':= by\b|:=\n|:= fun|:=',txt)]
    # choose: position of first ':= by' or ':=\n' if exists else pos
    c2=[x.start() for x in re.finditer(r':= by\b|:=\n',txt)]
    if c2 and c2[0]>=pos: pos=c2[0]
    new=txt[:pos]+':= by '+HOLE+'\n'
    lines[s:e]=new.split('\n')
    open(path,'w').write('\n'.join(lines))
    return name
def restore():
    for root in ('Verif','.'):
        src='/verif/lean/'+root
        for dp,dn,fn in os.walk(src):
            if root=='.': dn[:]=[]
            for f in fn:
                if not f.endswith('.lean'): continue
                a=os.path.join(dp,f); b=L+'/'+os.path.relpath(a,'/verif/lean')
                t=open(a).read()
                if not os.path.exists(b) or open(b).read()!=t:
                    os.makedirs(os.path.dirname(b),exist_ok=True); open(b,'w').write(t)
def run(m):
    """first only the property modules about the edited model file; everything if none of their theorems fails"""
    near=NEAR.get(m['file'].split('/')[-1][:-5])
    if near:
        TARGETS[:]=['Verif.Props.'+x for x in near]
        r=run1(m)
        if r['status']!='ok' or r['failed']: return r
    TARGETS[:]=[]
    return run1(m)
def run1(m):
    restore()
    f=V+'/'+m['file']; s=open(f).read()
    n=s.count(m['old'])
    if n==0: return dict(id=m['id'],status='OLD NOT FOUND')
    k=m.get('nth',0)
    if n>1 and 'nth' not in m: return dict(id=m['id'],status='AMBIGUOUS %d'%n)
    i=-1
    for _ in range(k+1): i=s.index(m['old'],i+1)
    s=s[:i]+m['new']+s[i+len(m['old']):]
    open(f,'w').write(s)
    holes=[];t0=time.time()
    for it in range(25):
        rc,out=build()
        if rc==0: break
        errs={}
        for x in re.finditer(r'^error: (Verif/\S+\.lean):(\d+):(\d+): (.*)$',out,re.M): errs.setdefault(x.group(1),set()).add(int(x.group(2)))
        if not errs: return dict(id=m['id'],status='BUILD FAILED',out=out[-2000:])
        prog=False
        for path,ls in errs.items():
            if path=='Verif/'+m['file'] or '/Model/' in path or '/Spec/' in path:
                # model does not compile -> stillborn mutant
                if '/Model/' in path: return dict(id=m['id'],status='MODEL ERROR',out=out[-1500:])
            for ln in sorted(ls,reverse=True):
                nm=hole(L+'/'+path,ln)
                if nm: holes.append(path[6:-5]+':'+nm); prog=True
        if not prog: return dict(id=m['id'],status='STUCK',out=out[-2000:],holes=holes)
    mods=['import '+x for x in TARGETS] or [l for l in open(L+'/Verif.lean').read().split('\n') if l.startswith('import')]
    open(L+'/Check.lean','w').write(CHECK%('\n'.join(mods),HOLE))
    p=subprocess.run(['lake','env','lean','Check.lean'],cwd=L,capture_output=True,text=True)
    failed=sorted(set(re.findall(r'FAILED (\S+)',p.stdout)))
    if p.returncode!=0: return dict(id=m['id'],status='CHECK FAILED',out=p.stdout[-1500:]+p.stderr[-500:])
    return dict(id=m['id'],status='ok',holes=holes,failed=[x.replace('PvDer.','') for x in failed],secs=round(time.time()-t0))
if __name__=='__main__':
    ms=json.load(open(sys.argv[1])); ids=sys.argv[2:]
    for m in ms:
        if ids and m['id'] not in ids: continue
        r=run(m)
        r['claim']=m['claim']; r['definition']=m['definition']; r['edit']=m['edit']
        open('/tmp/mut/results.jsonl','a').write(json.dumps(r,ensure_ascii=False)+'\n')
        print(r['id'],r['status'],r.get('secs'),'claim',m['claim'],'| failed:',' '.join(r.get('failed',[]))[:600],'| holes:',len(r.get('holes',[])),r.get('out','')[:600],flush=True)
    restore()
