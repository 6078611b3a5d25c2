#!/usr/bin/env python3
"""Generates lean/Verif/Model/Gen/Templates.lean from the literals in /repo/pvder/templates.py, properties.py and specifications.py (read as text, via ast)."""
import ast
from fractions import Fraction
from decimal import Decimal
R='/repo/pvder/'
def load(f): 
    src=open(R+f).read(); return src,ast.parse(src)
def assign(tree,name):
    for n in tree.body:
        if isinstance(n,ast.Assign) and n.targets[0].id==name if isinstance(n,ast.Assign) and isinstance(n.targets[0],ast.Name) else False: return n.value
src,tt=load('templates.py')
def s(x): return '"'+x+'"'
def rat(txt):
    f=Fraction(Decimal(txt)); 
    return f'({f.numerator}/{f.denominator})' if f.denominator!=1 else f'({f.numerator})'
def val(n):
    if isinstance(n,ast.Constant):
        v=n.value
        if v is None: return '.none'
        if isinstance(v,bool): return f'.bool {str(v).lower()}'
        if isinstance(v,int): return f'.int ({v})'
        if isinstance(v,float): return f'.float {rat(ast.get_source_segment(CUR,n))}'
        if isinstance(v,str): return f'.str {s(v)}'
    if isinstance(n,ast.UnaryOp) and isinstance(n.op,ast.USub):
        return f'.float (-{rat(ast.get_source_segment(CUR,n.operand))})'
    if isinstance(n,ast.Tuple): return '.tup ['+', '.join(s(e.value) for e in n.elts)+']'
    if isinstance(n,ast.Dict) and not n.keys: return '.dict'
    raise Exception(ast.dump(n))
CUR=src
names={'SolarPVDERSinglePhase':'single','SolarPVDERSinglePhaseConstantVdc':'constVdc1','SolarPVDERThreePhase':'three','SolarPVDERThreePhaseNoVrmsFilter':'noFilter','SolarPVDERThreePhaseNumba':'numba','SolarPVDERThreePhaseBalanced':'balanced','SolarPVDERThreePhaseConstantVdc':'constVdc3'}
out=['/- Generated by tools/gen_templates.py from /repo/pvder/templates.py, properties.py and specifications.py; do not edit. -/','import Verif.Model.PyVal','import Verif.Model.Sim','namespace PvDer','namespace Config','']
tmpl=assign(tt,'DER_design_template')
defs=[]
for k,v in zip(tmpl.keys,tmpl.values):
    nm=names[k.value]
    rows=[]
    for ck,cv in zip(v.keys,v.values):
        if isinstance(cv,ast.Dict):
            ps=', '.join(f'({s(a.value)}, {val(b)})' for a,b in zip(cv.keys,cv.values))
        else:
            assert cv.value==''; ps=''
        rows.append(f'   ({s(ck.value)}, [{ps}])')
    out+=[f'/-- `templates.DER_design_template["{k.value}"]` (templates.py {k.lineno}-{v.end_lineno}); the entry `"parent_config": ""` is an empty string, which iterates like an empty dictionary. -/',f'def tmpl_{nm} : Template :=','  ['+',\n'.join(rows).lstrip()+']','']
out+=['/-- `templates.DER_design_template` (templates.py 16-125). -/','def template : Sim.Mt → Template']+[f'  | .{n} => tmpl_{n}' for n in names.values()]+['']
out+=['/-- Class names, the keys of `templates.DER_design_template`. -/','def className : Sim.Mt → String']+[f'  | .{n} => {s(k)}' for k,n in names.items()]+['']
src,pt=load('properties.py'); CUR=src
TY={'int':'.int','float':'.float','complex':'.complex','bool':'.bool','string_type':'.str','tuple':'.tuple','dict':'.dict','Grid':'.grid'}
def tys(n):
    if isinstance(n,ast.Name): return '['+TY[n.id]+']'
    return '['+', '.join(TY[e.id] for e in n.elts)+']'
pp=assign(pt,'parameter_properties'); rows=[]
for k,v in zip(pp.keys,pp.values):
    d=dict((a.value,b) for a,b in zip(v.keys,v.values))
    rows.append(f'({s(k.value)}, {tys(d["type"])})')
out+=[f'/-- `properties.parameter_properties[...]["type"]` (properties.py {pp.lineno}-{pp.end_lineno}). -/','def props : List (String × List Ty) :=','  ['+',\n   '.join(rows)+']','']
src,st=load('specifications.py'); CUR=src
sp=assign(st,'DER_argument_spec'); rows=[]
for k,v in zip(sp.keys,sp.values):
    d=dict((a.value,b) for a,b in zip(v.keys,v.values))
    dv=val(d['default_value']); dv='none' if dv=='.none' else f'some ({dv})'
    rows.append(f'({s(k.value)}, {tys(d["type"])}, {dv})')
out+=[f'/-- `specifications.DER_argument_spec` (specifications.py {sp.lineno}-{sp.end_lineno}): name, accepted types, default (`none` when it is `None`). -/','def argSpec : List (String × List Ty × Option PVal) :=','  ['+',\n   '.join(rows)+']','']
out+=['end Config','end PvDer']
open('/verif/lean/Verif/Model/Gen/Templates.lean','w').write('\n'.join(out)+'\n')
