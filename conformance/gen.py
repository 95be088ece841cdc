import math,sys,json
from fractions import Fraction
from miniyaml import load
class NP: pi=math.pi; cos=math.cos; sin=math.sin; tan=math.tan; sqrt=math.sqrt; arccos=math.acos; array=staticmethod(lambda x,**k:x)
np=NP
def ex(v):
    if isinstance(v,str):
        try: return eval(v,{'np':NP,'math':math})
        except Exception as e: return v
    if isinstance(v,dict): return {k:ex(x) for k,x in v.items()}
    if isinstance(v,list): return [ex(x) for x in v]
    return v
def q(x):
    f=Fraction(x)
    s='(%d : ℚ)'%f.numerator if f.denominator==1 else '((%d : ℚ) / %d)'%(f.numerator,f.denominator)
    return '(.fin %s)'%s
def vec(v):
    return '['+', '.join(q(x) for x in (v if isinstance(v,list) else [v]))+']'
units={'m':'PUnit.meters','m/s':'(PUnit.meters.div .seconds)','mile':'(⟨{ length := 1 }, 1609344 / 1000⟩ : PUnit ℚ)','miles':'(⟨{ length := 1 }, 1609344 / 1000⟩ : PUnit ℚ)','mph':'((⟨{ length := 1 }, 1609344 / 1000⟩ : PUnit ℚ).div ⟨{ time := 1 }, 3600⟩)','miles/s':'((⟨{ length := 1 }, 1609344 / 1000⟩ : PUnit ℚ).div .seconds)','cm':'(⟨{ length := 1 }, 1 / 100⟩ : PUnit ℚ)','ft':'PUnit.feet','feet':'PUnit.feet','ft/s':'(PUnit.feet.div .seconds)','feet/s':'(PUnit.feet.div .seconds)','rad':'PUnit.radians','radians':'PUnit.radians','rad/s':'(PUnit.radians.div .seconds)',
 'deg':'degU','degrees':'degU','deg/s':'(degU.div .seconds)'}
def kwval(v):
    if isinstance(v,dict): 
        x,u=v['pint_quantity']; return '.quantity %s %s'%(q(ex(x)),units[u])
    return '.num %s'%q(v)
ARGS={'v_min':'vMin','v_max':'vMax','acceleration_control_min':'accMin','acceleration_control_max':'accMax','heading_rate_control_min':'headingRateMin','heading_rate_control_max':'headingRateMax','gamma_min':'gammaMin','gamma_max':'gammaMax','roll_min':'rollMin','roll_max':'rollMax','gamma_rate_control_min':'gammaRateMin','gamma_rate_control_max':'gammaRateMax','roll_rate_control_min':'rollRateMin','roll_rate_control_max':'rollRateMax','n':'n'}
NEW={'CWHSpacecraft':'newCwhSpacecraft env','CWHRotation2dSpacecraft':'newRot2d env','SixDOFSpacecraft':'newSixDof env (fun _ => [])','Dubins2dAircraft':'newDubins2d env','Dubins3dAircraft':'newDubins3d env','SunEntity':'newSun env'}
def build(cls,kw,name='tests'):
    a=[];k=['("name", .str "%s")'%name]
    for key,v in (kw or {}).items():
        v=ex(v)
        if key in ARGS: a.append('%s := %s'%(ARGS[key],q(v)))
        else: k.append('("%s", %s)'%(key,kwval(v)))
    return '(%s { %skwargs := [%s] })'%(NEW[cls],''.join(x+', ' for x in a),', '.join(k))
def ctl(c):
    if c is None: return '.none'
    if isinstance(c,dict): return '(.dict [%s])'%', '.join('("%s", %s)'%(k,q(v)) for k,v in c.items())
    return '(.list %s)'%vec(c)
def state(d):
    st=[]
    for v in d.values(): st+= v if isinstance(v,list) else [v]
    return st
ACC={'CWHSpacecraft':{'position':'.ok (cwhPosition e)','velocity':'.ok (cwhVelocity e)'},
'CWHRotation2dSpacecraft':{'position':'rot2dPosition e','velocity':'rot2dVelocity e','theta':'idx e 2','wz':'idx e 5'},
'SixDOFSpacecraft':{'position':'.ok (sixDofPosition e)','velocity':'.ok (sixDofVelocity e)','angular_velocity':'.ok (sixDofAngularVelocity e)','quaternion':'sixDofQuaternion e','wx':'idx e 10','wy':'idx e 11','wz':'idx e 12'},
'Dubins2dAircraft':{'position':'dubins2dPosition e','velocity':'dubins2dVelocity e','acceleration':'dubins2dAcceleration e','heading':'idx e 2','v':'idx e 3'},
'Dubins3dAircraft':{'position':'.ok (dubins3dPosition e)','velocity':'dubins3dVelocity e','acceleration':'dubins3dAcceleration e','heading':'idx e 3','gamma':'idx e 4','roll':'idx e 5','v':'idx e 6'}}
out=[];n=0
for cls in ACC:
    cs=load('/repo/test/test_cases/%s_test_cases.yaml'%cls)
    dflt={}
    if cs[0]['ID']=='defaults': dflt=cs.pop(0)['defaults']
    for c in cs:
        kw=c.get('init_kwargs')
        ini=ex(c.get('attr_init')); con=ex(c.get('control')); tg=ex(c['attr_targets'])
        eb=ex(c.get('error_bound',dflt.get('error_bound'))); pb=ex(c.get('proportional_error_bound',dflt.get('proportional_error_bound'))) or 0
        chk=[]
        for k,v in tg.items():
            ang='true' if k in dflt.get('angles',{}) else 'false'
            chk.append('("%s", fun e => %s, %s, %s)'%(k,ACC[cls][k],vec(v),ang))
        st='some %s'%vec(state(ini)) if ini else 'none'
        out.append('#eval runCase "%s" %s (%s) %s %d %s %s [%s]'%((cls+': '+c['ID']).replace('"',"'"),build(cls,kw),st,ctl(con),c['num_steps'],'(%s : ℚ)'%(str(Fraction(eb))),'(%s : ℚ)'%(str(Fraction(pb))),', '.join(chk)))
        n+=1
EQ={'CWHSpacecraft':'cwhEq ident','CWHRotation2dSpacecraft':'rot2dEq','SixDOFSpacecraft':'sixDofEq','Dubins2dAircraft':'dubins2dEq euler','Dubins3dAircraft':'dubins3dEq euler','SunEntity':'(fun a b => .ok (sunEq a b))'}
for c in load('/repo/test/test_cases/compare_entities_test_cases.yaml'):
    a,b=c['this_entity'],c['other_entity']
    ca,cb=[x['entity_class'].split('.')[-1] for x in(a,b)]
    def be(x,cl):
        s=ex(x.get('init_state')); 
        return build(cl,x.get('init_kwargs')),('some %s'%vec(state(s)) if isinstance(s,dict) else 'none')
    ba,sa=be(a,ca); bb,sb=be(b,cb)
    out.append('#eval runEq "%s" %s (%s) %s (%s) (%s) %s %s'%(c['ID'],ba,sa,bb,sb,EQ[ca],str(ca==cb).lower(),str(c['expect_equal']).lower())); n+=1
open('cases.lean','w').write('\n'.join(out)+'\n')
print(n)
