"""Writes lean/Verif/Model/Gen/Shipped.lean from /repo/config_der.json."""
import json, decimal, fractions
src='/repo/config_der.json'
data=json.load(open(src),parse_float=decimal.Decimal)
lines=open(src).read().split('\n')
def span(key):
    for n,l in enumerate(lines,1):
        if l.strip().startswith('"%s":{'%key): return n
RT=["LVRT","HVRT","VRT_delays","LFRT","HFRT","FRT_delays"]
def val(v):
    if isinstance(v,bool): return '.bool '+str(v).lower()
    if isinstance(v,int): return '.int (%d)'%v
    if isinstance(v,decimal.Decimal):
        f=fractions.Fraction(v)
        n=str(f.numerator) if f.denominator==1 else '%d/%d'%(abs(f.numerator),f.denominator)
        if f<0: n='-(%s)'%(n.lstrip('-'))
        return '.float (%s)'%n
    if isinstance(v,str): return '.str "%s"'%v
    raise SystemExit('unexpected value %r'%v)
def pairs(d): return '['+', '.join('("%s", %s)'%(k,val(v)) for k,v in d.items())+']'
def body(d):
    out=[]
    for k,v in d.items():
        out.append('("%s", %s)'%(k, '.level (dictOf %s)'%pairs(v) if isinstance(v,dict) else '.val (%s)'%val(v)))
    return '['+', '.join(out)+']'
o='''/- Generated by tools/gen_shipped.py from /repo/config_der.json; do not edit. -/
import Verif.Props.Config
namespace PvDer
namespace Config
namespace Shipped

'''
names=[]
for key,d in data.items():
    nm='c_'+key
    names.append((key,nm))
    o+='/-- `"%s"` (config_der.json %d). -/\n'%(key,span(key))
    if set(d)=={'config'}:
        o+='def %s : Cfg := blockOf\n  %s\n\n'%(nm,body(d['config']))
        continue
    leaves={k:v for k,v in d.items() if not isinstance(v,dict)}
    comps={k:v for k,v in d.items() if isinstance(v,dict) and k not in RT}
    rts={k:v for k,v in d.items() if k in RT}
    def node(v):
        assert set(v)<= {'config','config_id'}
        return '⟨%s, %s⟩'%('some '+body(v['config']) if 'config' in v else 'none', 'some "%s"'%v['config_id'] if 'config_id' in v else 'none')
    o+='def %s : Cfg := cfgOf %s\n  [%s]\n  [%s]\n\n'%(nm,pairs(leaves),',\n   '.join('("%s", %s)'%(k,pairs(v)) for k,v in comps.items()),', '.join('("%s", %s)'%(k,node(v)) for k,v in rts.items()))
o+='/-- The configuration file that comes with the tool. -/\ndef file : File\n'
for k,nm in names: o+='  | "%s" => some %s\n'%(k,nm)
o+='  | _ => none\n\nend Shipped\nend Config\nend PvDer\n'
open('/verif/lean/Verif/Model/Gen/Shipped.lean','w').write(o)
