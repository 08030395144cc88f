#!/usr/bin/env python3
"""Generate lean/Verif/Model/CliTable.lean from the signatures in /repo/src/pymap3d (read as text)."""
import ast,os
R="/repo/src/pymap3d/"
init=ast.parse(open(R+"__init__.py").read())
mods={};allv=[]
for n in init.body:
    if isinstance(n,ast.ImportFrom) and n.level==1:
        for a in n.names: mods[a.name]=n.module
    if isinstance(n,ast.Assign) and n.targets[0].id=="__all__": allv+=[e.value for e in n.value.elts]
    if isinstance(n,ast.AugAssign) and n.target.id=="__all__": allv+=[e.value for e in n.value.elts]
def dflt(d):
    if d is None: return None
    v=ast.literal_eval(d)
    if v is None: return ".none"
    if v is True: return "(.bool true)"
    if v is False: return "(.bool false)"
    if isinstance(v,float):
        assert v==0.0; return "(.flt 0 true 1)"
    if isinstance(v,int): return f"(.int {v})"
    return f'(.str "{v}")'
out=[]
for name in allv:
    t=ast.parse(open(R+mods[name]+".py").read())
    fut=any(isinstance(n,ast.ImportFrom) and n.module=="__future__" for n in t.body)
    target=name
    for n in t.body:
        if isinstance(n,ast.Assign) and getattr(n.targets[0],"id",None)==name: target=n.value.id
    f=[n for n in t.body if isinstance(n,(ast.FunctionDef,ast.ClassDef)) and n.name==target][-1]
    loc=f"{mods[name]}.py {f.lineno}"
    if isinstance(f,ast.ClassDef):
        out.append(f'  {{ name := "{name}", isClass := true }}, -- {loc}'); continue
    a=f.args; pos=a.posonlyargs+a.args
    ds=[None]*(len(pos)-len(a.defaults))+a.defaults
    ps=[]
    for x,d in list(zip(pos,ds))+list(zip(a.kwonlyargs,a.kw_defaults)):
        ann=ast.unparse(x.annotation) if x.annotation else ""
        isdt="true" if ann=="datetime" and not fut else "false"
        dd=dflt(d)
        ps.append(f'⟨"{x.arg}", {isdt}, {"none" if dd is None else "some "+dd}⟩')
    var="true" if a.vararg or a.kwarg else "false"
    doc="true" if (ast.get_docstring(f) or "").strip() else "false"
    out.append(f'  {{ name := "{name}", variadic := {var}, hasDoc := {doc}, params := [{", ".join(ps)}] }}, -- {loc}')
body="\n".join(out)
i=body.rfind("}, --"); body=body[:i]+"} --"+body[i+5:]
s=f'''import Verif.Model.Cli
/-!
Generated by `tools/cli_table.py`: the entries of `pymap3d.__all__` (`/repo/src/pymap3d/__init__.py` 162-294) with their
signatures; the comment after each entry is the file and line of its definition.
-/
namespace Pymap3d

/-- `__init__.py` 162-294 -/
def exportTable : List ExportEntry := [
{body}
]

end Pymap3d
'''
open(os.path.join(os.path.dirname(os.path.abspath(__file__)),"..","lean","Verif","Model","CliTable.lean"),"w").write(s)
