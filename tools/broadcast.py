#!/usr/bin/env python3
"""Generate lean/Verif/Props/BroadcastElem.lean (C85): calls with broadcast operands, functions without value branches."""
import re,sys
sys.argv=["x"]
src=open("/verif/tools/nan.py").read()
ns={}
exec(src[src.index("T=["):src.index("# proofs of the value")],ns)
T=[t for t in ns["T"] if t[0] not in ("enu2aer","ecef2aer","geodetic2aer","ned2aer","nwu2aer","sez2aer","dca2aer","departure")]
PROJ={1:[""],2:[".1",".2"],3:[".1",".2.1",".2.2"]}
o=['''import Verif.Props.BroadcastBase
/-!
**C85** (generated by `tools/broadcast.py`): calls whose arguments are numbers and arrays of different shapes, for the functions without
value-dependent branches.  `bc_f`: the value of each result at a multi-index is the result of the scalar call on the values of the arguments
at that multi-index (arguments with fewer axes, or axes of length 1, repeat their elements), and the kind and shape of each result is what
the analysis of kinds (C81) says.
-/
set_option linter.unusedSectionVars false
set_option linter.unusedSimpArgs false
namespace Pymap3d
open Py

variable {F : Type} [Add F] [Sub F] [Mul F] [Div F] [Neg F] [Pow F Nat] [OfScientific F] [LT F] [LE F]
  [DecidableLT F] [DecidableLE F] [PyMath F]
''']
names=[]
for name,args,deps,he,hd,ex in T:
    A=args.split()
    ellb=" (ell : Option (Ellipsoid F))" if he else ""
    degb=" (deg : Bool)" if hd else ""
    tail=(" (ellND ell)" if he else "")+(" deg" if hd else "")
    tailn=(" ell" if he else "")+(" deg" if hd else "")
    tailk=(" (ellKind ell)" if he else "")+(" deg" if hd else "")
    P=PROJ[len(deps)]
    call=f"{name} {' '.join(A)}{tail}"
    c1=[f"({call}){p}.get i = ({name} {' '.join(f'({a}.get i)' for a in A)}{tailn}){p}" for p in P]
    c2=[f"({call}){p}.kind = ({name} {' '.join(f'{a}.kind' for a in A)}{tailk}){p}" for p in P]
    o.append(f"theorem bc_{name} ({' '.join(A)} : ND F){ellb}{degb} (i : MultiIndex) :\n    ("+" ∧\n      ".join(c1)+") ∧\n    ("+" ∧\n      ".join(c2)+") := by")
    exs=", ".join("bc_"+e[4:] if e.startswith("nan_") else e for e in ex.split())
    exs=(", "+exs) if exs else ""
    o.append("  constructor")
    if len(P)>1: o.append("  · refine ⟨"+", ".join("?_" for _ in P)+"⟩ <;>")
    else: o.append("  ·")
    o.append(f"      simp [{name}{exs}]")
    pre="cases ell <;> cases deg <;> " if he else ("cases deg <;> " if hd else "")
    o.append("  · "+pre+("exact ⟨"+", ".join("rfl" for _ in P)+"⟩" if len(P)>1 else "rfl")+"\n")
    names.append(name)
o.append("end Pymap3d")
open("/verif/lean/Verif/Props/BroadcastElem.lean","w").write("\n".join(o)+"\n")
print(" ".join(f"bc_{n}" for n in names))
