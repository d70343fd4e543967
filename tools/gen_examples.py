"""Translate /repo/ramp/example/input_file_{1,2,3}.py into /verif/lean/Verif/Model/Examples.lean."""
import ast, os
from fractions import Fraction
from decimal import Decimal
ARGS=["number","power","num_windows","func_time","time_fraction_random_variability","func_cycle","fixed","fixed_cycle",
 "continuous_duty_cycle","occasional_use","flat","thermal_p_var","pref_index","wd_we_type","name"]
LEAN=dict(number="number",power="power",num_windows="numWindows",func_time="funcTime",time_fraction_random_variability="timeFractionRandomVariability",
 func_cycle="funcCycle",fixed="fixed",fixed_cycle="fixedCycle",continuous_duty_cycle="continuousDutyCycle",occasional_use="occasionalUse",flat="flat",
 thermal_p_var="thermalPVar",pref_index="prefIndex",wd_we_type="wdWeType",name="name")
def ev(n):
    if isinstance(n,ast.BinOp): return ev(n.left)*ev(n.right)
    if isinstance(n,ast.List): return tuple(ev(x) for x in n.elts)
    if isinstance(n,ast.Name): return n
    return n.value
def num(x):
    f=Fraction(Decimal(repr(x)))
    return str(f.numerator) if f.denominator==1 else f"{f.numerator}/{f.denominator}"
def lit(k,v):
    if isinstance(v,str): return '"'+v+'"'
    if isinstance(v,tuple): return f"({v[0]}, {v[1]})"
    if k=="power": return ".series power" if isinstance(v,ast.Name) else f".number {num(v)}"
    return num(v)
def bind(names,call):
    d={}
    for k,a in zip(names,call.args): d[k]=ev(a)
    for kw in call.keywords: d[kw.arg]=ev(kw.value)
    return d
out=['''import Verif.Model.UseCase
import Verif.Model.Api

/-! # The example input files

Written by `tools/gen_examples.py` from `/repo/ramp/example/input_file_1.py`, `input_file_2.py` and `input_file_3.py`: for each user category
the new user and the calls for its appliances, in order; the object number `k` is the `k`-th appliance of the user.  Calls for different
users do not interact.  Decimal literals are read as exact fractions; `num_days` of a user without use case is 366 (`core.py:819-824`). -/

set_option autoImplicit false

namespace Ramp
''']
for f in (1,2,3):
    src=open(f'/repo/ramp/example/input_file_{f}.py').read()
    users={}; order=[]; apps={}; ops={}
    line={}
    for st in ast.parse(src).body:
        if isinstance(st,ast.If): break
        call=None;tgt=None
        if isinstance(st,ast.Assign) and isinstance(st.value,ast.Call): call=st.value; tgt=st.targets[0].id
        elif isinstance(st,ast.Expr) and isinstance(st.value,ast.Call): call=st.value
        if call is None: continue
        fn=call.func
        if isinstance(fn,ast.Name) and fn.id=="User":
            users[tgt]=bind(["user_name","num_users","user_preference"],call); order.append(tgt); ops[tgt]=[]; line[tgt]=[st.lineno,[]]
            continue
        if not isinstance(fn,ast.Attribute): continue
        obj=fn.value.id if isinstance(fn.value,ast.Name) else None
        loc=st.lineno if st.lineno==st.end_lineno else f"{st.lineno}-{st.end_lineno}"
        if fn.attr=="add_appliance":
            k=sum(1 for a,(u,_) in apps.items() if u==obj); apps[tgt]=(obj,k)
            d=bind(ARGS,call)
            ops[obj].append((f".add 366 {{ app := {{ "+", ".join(f"{LEAN[a]} := {lit(a,d[a])}" for a in ARGS if a in d)+" } }",st))
        elif obj in apps:
            u,k=apps[obj]
            if fn.attr=="windows":
                d=bind(["window_1","window_2","random_var_w","window_3"],call)
                m=dict(window_1="window1",window_2="window2",random_var_w="randomVarW",window_3="window3")
                ops[u].append((f".windows {k} {{ "+", ".join(f"{m[a]} := "+(f"some {lit(a,d[a])}" if a!="random_var_w" else lit(a,d[a])) for a in m if a in d)+" }",st))
            elif fn.attr.startswith("specific_cycle_"):
                i=fn.attr[-1]
                nm=[f"p_{i}1",f"t_{i}1",f"p_{i}2",f"t_{i}2",f"r_c{i}"]
                m=dict(zip(nm,["p1","t1","p2","t2","rc"]))
                d=bind(nm,call)
                ops[u].append((f".cycle {k} {i} {{ "+", ".join(f"{m[a]} := {lit(a,d[a])}" for a in nm if a in d)+" }",st))
            elif fn.attr=="cycle_behaviour":
                nm=["cw11","cw12","cw21","cw22","cw31","cw32"]
                d=bind(nm,call)
                ops[u].append((f".behaviour {k} "+" ".join(lit(a,d.get(a,(0,0))) for a in nm),st))
            else: raise Exception(fn.attr)
    names=[]
    par=" (power : List ℚ)" if f==2 else ""
    for u in order:
        d=users[u]; nm=f"file{f}{u.replace('_','')}"; names.append(nm+(" power" if f==2 else ""))
        ls=[x[1] for x in ops[u]]
        us=", ".join([f'userName := "{d["user_name"]}"',f'numUsers := {d.get("num_users",1)}']+([f'userPreference := {d["user_preference"]}'] if "user_preference" in d else []))
        out.append(f'/-- The user category of `input_file_{f}.py:{line[u][0]}` and the calls of `input_file_{f}.py:{ls[0].lineno}-{ls[-1].end_lineno}`.'+(" The table read from\n`shower_P.csv` is a parameter." if f==2 else "")+f' -/\ndef {nm}{par} : User × List ApiOp := ({{ {us} }}, [\n  '+",\n  ".join(x[0] for x in ops[u])+"])\n")
    out.append(f'/-- The user list of `input_file_{f}.py`. -/\ndef inputFile{f}{par} : List (User × List ApiOp) := ['+", ".join(names)+"]\n")
out.append("end Ramp\n")
open(os.path.join(os.path.dirname(os.path.abspath(__file__)),"../lean/Verif/Model/Examples.lean"),"w").write("\n".join(out))
