#!/usr/bin/env python3
"""Translate the derivative and Jacobian code of the PV-DER classes (read as text from /repo) into Lean definitions.

The statements of `ODE_model` / `jac_ODE_model` that follow the `update_*` calls are executed symbolically: every
`self.x` becomes the field `x` of the structure `Env`, every `if` becomes a Lean `if`, module-level helper functions
(numba model) are inlined.  Nothing is simplified.  Output: lean/Verif/Model/Gen/*.lean."""
import ast, os, fractions
REPO='/repo/pvder/'
OUT='/verif/lean/Verif/Model/Gen/'
CPLX={p+x for p in ('i','x','u') for x in 'abc'}|{'va','vb','vc','vta','vtb','vtc','ia_ref','ib_ref','ic_ref','S','S_PCC'}
MODELS=[('SinglePhase','DER_components_single_phase.py','SolarPVDERSinglePhase'),
 ('ThreePhase','DER_components_three_phase.py','SolarPVDERThreePhase'),
 ('ThreePhaseNoVrmsFilter','DER_components_three_phase_no_Vrms_filter.py','SolarPVDERThreePhaseNoVrmsFilter'),
 ('ThreePhaseNumba','DER_components_three_phase_numba.py','SolarPVDERThreePhaseNumba'),
 ('ThreePhaseBalanced','DER_components_three_phase_balanced.py','SolarPVDERThreePhaseBalanced'),
 ('SinglePhaseConstantVdc','DER_components_single_phase_constant_Vdc.py','SolarPVDERSinglePhaseConstantVdc'),
 ('ThreePhaseConstantVdc','DER_components_three_phase_constant_Vdc.py','SolarPVDERThreePhaseConstantVdc')]
STUBS={'update_inverter_states','update_Ppv','update_Zload1','update_voltages','update_power','update_RMS','update_Qref','update_Vdc_ref','update_iref',
 'update_inverter_frequency','update_ridethrough_flags','disconnect_or_reconnect'}
class X:
    def __init__(s,t,ty): s.t=t; s.ty=ty
def cx(e): return e.t if e.ty=='C' else '((%s : ℝ) : ℂ)'%e.t
def num(v):
    fr=fractions.Fraction(str(v)) if not isinstance(v,complex) else None
    if str(v)=='0.866025403': return X('s1','R')
    if str(v)=='0.8660254037': return X('s2','R')
    if fr.denominator==1: return X('(%d : ℝ)'%fr.numerator,'R')
    return X('((%d : ℝ) / %d)'%(fr.numerator,fr.denominator),'R')
class Tr:
    def __init__(s,funcs): s.funcs=funcs; s.used=set()
    def ev(s,n,env):
        if isinstance(n,ast.Constant):
            if isinstance(n.value,complex): assert n.value==1j; return X('Complex.I','C')
            return num(n.value)
        if isinstance(n,ast.Name):
            return X('e.t','R') if n.id=='t' else env[n.id]
        if isinstance(n,ast.Attribute):
            if isinstance(n.value,ast.Name) and n.value.id=='self':
                s.used.add(n.attr)
                if ('self',n.attr) in env: return env[('self',n.attr)]
                return X('e.'+n.attr,'C' if n.attr in CPLX else 'R')
            if isinstance(n.value,ast.Name) and n.value.id=='math' and n.attr=='pi': return X('Real.pi','R')
            b=s.ev(n.value,env)
            if n.attr=='real': assert b.ty=='C'; return X('(%s).re'%b.t,'R')
            if n.attr=='imag': assert b.ty=='C'; return X('(%s).im'%b.t,'R')
            raise Exception(ast.dump(n))
        if isinstance(n,ast.UnaryOp):
            a=s.ev(n.operand,env); assert isinstance(n.op,ast.USub); return X('(-%s)'%a.t,a.ty)
        if isinstance(n,ast.BinOp):
            a=s.ev(n.left,env); b=s.ev(n.right,env)
            if isinstance(n.op,ast.Pow):
                assert isinstance(n.right,ast.Constant) and n.right.value==2; return X('(%s ^ 2)'%a.t,a.ty)
            op={ast.Add:'+',ast.Sub:'-',ast.Mult:'*',ast.Div:'/'}[type(n.op)]
            if a.ty=='R' and b.ty=='R': return X('(%s %s %s)'%(a.t,op,b.t),'R')
            return X('(%s %s %s)'%(cx(a),op,cx(b)),'C')
        if isinstance(n,ast.Compare):
            a=s.ev(n.left,env); b=s.ev(n.comparators[0],env)
            op={ast.Gt:'>',ast.Eq:'='}[type(n.ops[0])]
            return X('%s %s %s'%(a.t,op,b.t),'B')
        if isinstance(n,ast.Tuple): return [s.ev(x,env) for x in n.elts]
        if isinstance(n,ast.Call):
            f=n.func
            name=f.attr if isinstance(f,ast.Attribute) else f.id
            args=[s.ev(a,env) for a in n.args]
            if name=='abs':
                return X('‖%s‖'%args[0].t if args[0].ty=='C' else '|%s|'%args[0].t,'R')
            if name=='sign': return X('SignType.sign (%s)'%args[0].t,'S')
            if name in('cos','sin','exp'): return X('Real.%s (%s)'%(name,args[0].t) if False else '(Real.%s (%s))'%(name,args[0].t),'R')
            if name=='polar': return [X('‖%s‖'%args[0].t,'R'),X('(Complex.arg (%s))'%args[0].t,'R')]
            if name in s.funcs:
                fn=s.funcs[name]; e2={a.arg:v for a,v in zip(fn.args.args,args)}
                return s.run(fn.body,e2)
            raise Exception(name)
        raise Exception(ast.dump(n))
    def assign(s,tgt,v,env):
        if isinstance(tgt,ast.Tuple):
            for a,b in zip(tgt.elts,v): s.assign(a,b,env)
        elif isinstance(tgt,ast.Name): env[tgt.id]=v
        elif isinstance(tgt,ast.Subscript):
            r,c=[x.slice.value for x in tgt.slice.elts]
            env[('J',r,c)]=v
        else: raise Exception(ast.dump(tgt))
    def run(s,body,env):
        for st in body:
            if isinstance(st,ast.Expr):
                if isinstance(st.value,ast.Constant): continue
                if isinstance(st.value,ast.Call) and st.value.func.attr in STUBS: continue
                raise Exception(ast.dump(st))
            if isinstance(st,ast.Try): 
                r=s.run(st.body,env)
                if r is not None: return r
                continue
            if isinstance(st,ast.Assign):
                t=st.targets[0]
                if isinstance(st.value,ast.Name) and st.value.id=='y':
                    env['order']=[x.id for x in t.elts]; continue
                if isinstance(st.value,ast.Call) and isinstance(st.value.func,ast.Name) and st.value.func.id=='update_inverter_states': continue
                if isinstance(t,ast.Name) and t.id in('J','varInd'): continue
                if isinstance(st.value,ast.List):
                    env[t.id]=[x.id for x in st.value.elts]; continue
                s.assign(t,s.ev(st.value,env),env); continue
            if isinstance(st,ast.If):
                c=s.ev(st.test,env)
                e1=dict(env); e2=dict(env)
                s.run(st.body,e1); s.run(st.orelse,e2)
                for k in set(e1)|set(e2):
                    a=e1.get(k); b=e2.get(k)
                    if a is b: continue
                    if a is None: a=X('Jp .%s .%s'%(k[1],k[2]),'R')
                    if b is None: b=X('Jp .%s .%s'%(k[1],k[2]),'R')
                    env[k]=X('(if %s then %s else %s)'%(c.t,a.t,b.t),'R')
                continue
            if isinstance(st,ast.Return):
                if isinstance(st.value,ast.Name) and st.value.id=='J': return 'J'
                if isinstance(st.value,ast.Call) and st.value.func.attr=='array': return 'R'
                return s.ev(st.value,env)
            raise Exception(ast.dump(st))
def varind():
    """state_list of each model in initialize_jacobian."""
    t=ast.parse(open(REPO+'DER_check_and_initialize.py').read()); out={}
    for n in ast.walk(t):
        if isinstance(n,ast.FunctionDef) and n.name=='initialize_jacobian':
            for m in ast.walk(n):
                if isinstance(m,ast.If) and isinstance(m.test,ast.Compare) and isinstance(m.test.comparators[0],ast.Constant):
                    out[m.test.comparators[0].value]=([x.value for x in m.body[0].value.elts],m.body[0].lineno,m.body[0].end_lineno)
    return out
def main():
    os.makedirs(OUT,exist_ok=True)
    VI=varind(); allused=set()
    res=[]
    for name,fn,cls in MODELS:
        src=open(REPO+fn).read(); t=ast.parse(src)
        funcs={n.name:n for n in t.body if isinstance(n,ast.FunctionDef)}
        if 'Numba' in name:
            t2=ast.parse(open(REPO+'utility_functions_numba.py').read())
            for n in t2.body:
                if isinstance(n,ast.FunctionDef): funcs.setdefault(n.name,n)
        c=[n for n in t.body if isinstance(n,ast.ClassDef) and n.name==cls][0]
        ode=[n for n in c.body if isinstance(n,ast.FunctionDef) and n.name=='ODE_model'][0]
        jac=[n for n in c.body if isinstance(n,ast.FunctionDef) and n.name=='jac_ODE_model'][0]
        y0=[n for n in c.body if isinstance(n,ast.FunctionDef) and n.name=='y0'][0]
        tr=Tr(funcs); env={}
        tr.run(ode.body,env)
        tj=Tr(funcs); ej={}; tj.run(jac.body,ej)
        used=tr.used|tj.used; allused|=used
        vi,l1,l2=VI[cls]
        order=env.get('order') or vi
        assert len(order)==len(env['result']), (name,len(order),len(env['result']))
        y0l=[n for n in ast.walk(y0) if isinstance(n,ast.Return)][0].value.elts
        def yn(n):
            if n.attr in('real','imag'): return n.value.attr+('R' if n.attr=='real' else 'I')
            return n.attr
        y0names=[yn(x) for x in y0l]
        # names of the inductive type: those of the Jacobian index table
        V=vi
        o=[]
        o.append('import Verif.Model.OdeEnv\n')
        o.append('/-!\n# Generated by tools/gen_ode.py from pvder/%s (class %s); do not edit\n-/\n'%(fn,cls))
        o.append('set_option linter.unusedVariables false\n')
        o.append('namespace PvDer\nnamespace Ode\nnamespace %s\n'%name)
        o.append('/-- State names: keys of the Jacobian index table `varInd` (DER_check_and_initialize.py %d-%d); the constructor order is the table order. -/'%(l1,l2))
        o.append('inductive V\n  | '+' | '.join(V)+'\n  deriving DecidableEq, Repr\n')
        o.append('/-- `varInd` (DER_check_and_initialize.py %d-%d, 562-564). -/'%(l1,l2))
        o.append('def varInd : List V := ['+', '.join('.'+v for v in V)+']\n')
        o.append('/-- The index table lists every state exactly once. -/')
        o.append('instance : Fintype V := ⟨⟨(varInd : Multiset V), by decide⟩, by intro x; cases x <;> decide⟩\n')
        o.append('/-- A sum over all states, written out. -/')
        o.append('theorem sum_V (f : V → ℝ) : ∑ j, f j = '+' + '.join('f .'+v for v in V)+' := by')
        o.append('  have h : ∑ j, f j = (varInd.map f).sum := rfl')
        o.append('  rw [h]; simp only [varInd, List.map_cons, List.map_nil, List.sum_cons, List.sum_nil]; ring\n')
        o.append('/-- Names of the entries of the list `y0` (pvder/%s %d-%d). -/'%(fn,y0.lineno,y0.end_lineno))
        o.append('def y0Names : List String := ['+', '.join('"%s"'%v for v in y0names)+']\n')
        o.append('/-- Names unpacked from `y` in `ODE_model` (pvder/%s %d-%d)%s. -/'%(fn,ode.lineno,ode.end_lineno,'' if 'order' in env else '; here the module constants `iaR_id = 0` … used as indices'))
        o.append('def unpackNames : List String := ['+', '.join('"%s"'%v for v in order)+']\n')
        o.append('/-- Names of the entries of `result` in `ODE_model` (pvder/%s %d-%d), without the leading `d`. -/'%(fn,ode.lineno,ode.end_lineno))
        o.append('def resultNames : List String := ['+', '.join('"%s"'%v[1:] for v in env['result'])+']\n')
        o.append('/-- Keys of the Jacobian index table as strings. -/')
        o.append('def varIndNames : List String := ['+', '.join('"%s"'%v for v in V)+']\n')
        o.append('/-- Derivative vector returned by `ODE_model`, entry at the position of each state (pvder/%s %d-%d). -/'%(fn,ode.lineno,ode.end_lineno))
        o.append('noncomputable def rhs (e : Env) : V → ℝ')
        for v,r in zip(V,env['result']):
            o.append('  | .%s => %s'%(v,env[r].t))
        o.append('')
        aux=[]
        rows={}
        for k,v in ej.items():
            if isinstance(k,tuple) and k[0]=='J': rows.setdefault(k[1],{})[k[2]]=v
        for v in V:
            o.append('/-- Row `%s` written by `jac_ODE_model` (pvder/%s %d-%d); entries not assigned keep the value `Jp` of the previous call.  `s1`, `s2` stand for the literals 0.866025403 and 0.8660254037. -/'%(v,fn,jac.lineno,jac.end_lineno))
            o.append('noncomputable def jac_%s (s1 s2 : ℝ) (e : Env) (Jp : V → V → ℝ) : V → ℝ'%v)
            for w in V:
                if w in rows.get(v,{}): o.append('  | .%s => %s'%(w,rows[v][w].t))
            if len(rows.get(v,{}))<len(V): o.append('  | c => Jp .%s c'%v)
            o.append('')
        assert set(rows)<=set(V) and all(set(r)<=set(V) for r in rows.values()),(name,set(rows)-set(V))
        o.append('/-- The matrix returned by `jac_ODE_model` (pvder/%s %d-%d) given the matrix `Jp` left by the previous call. -/'%(fn,jac.lineno,jac.end_lineno))
        o.append('noncomputable def jac (s1 s2 : ℝ) (e : Env) (Jp : V → V → ℝ) : V → V → ℝ')
        for v in V: o.append('  | .%s => jac_%s s1 s2 e Jp'%(v,v))
        o.append('\nend %s\nend Ode\nend PvDer'%name)
        open(OUT+name+'.lean','w').write('\n'.join(o)+'\n')
        print(name,len(V),'order ok' if order==V else ('ORDER',order,V), 'result', [a for a,b in zip(env['result'],V) if a[1:]!=b], 'y0',[a for a,b in zip(y0names,V) if a!=b],len(y0names))
    print(sorted(allused))
main()
