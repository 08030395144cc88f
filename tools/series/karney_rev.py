"""generates lean/Verif/Lemmas/KarneyRev.lean: the reversion series C1' solves  G'(t)^2 (1 - 2 e cos(t+u) + e^2) = (1+e^2/4+..)^2  to order six"""
from poly import *
import math
e=P.v('e'); c=P.v('c'); f=Fr; N=7
E=f(1,18)
def cheb(n):
    T=[P.c(1),c]
    while len(T)<=n: T.append(2*c*T[-1]-T[-2])
    return T[n]
def U(n):
    T=[P.c(1),2*c]
    while len(T)<=n: T.append(2*c*T[-1]-T[-2])
    return T[n]
C1p={1:{1:f(1,2),3:-f(9,32),5:f(205,1536)},2:{2:f(5,16),4:-f(37,96),6:f(1335,4096)},3:{3:f(29,96),5:-f(75,128)},4:{4:f(539,1536),6:-f(2391,2560)},5:{5:f(3467,7680)},6:{6:f(38081,61440)}}
def up(x):
    """round up to three digits"""
    x=Fr(x)
    if x==0: return x
    k=0
    while x*10**k<1000: k+=1
    return Fr(math.ceil(x*10**k),10**k)
sh=lambda x:f'({x.numerator}/{x.denominator})' if x.denominator!=1 else f'{x.numerator}'
class T:
    def __init__(s,expr,co,B,R,name): s.x,s.co,s.B,s.R,s.name=expr,co,B,R,name
out=[]
def emit(t,proof,eqproof=None):
    out.append(f"  have {t.name} : TM e ({t.x}) {' '.join('('+p.show()+')' for p in t.co)} {' '.join(sh(b) for b in t.B)} {sh(t.R)} := by\n{proof}")
def fin(expr,co,B,R,name,src,eq='ring'):
    t=T(expr,co,[up(b) for b in B],up(R),name)
    emit(t,f"    refine ({src}).congr {' '.join(['?_']*15)}\n    on_goal 15 => norm_num\n    on_goal 14 => norm_num\n    on_goal 13 => norm_num\n    on_goal 12 => norm_num\n    on_goal 11 => norm_num\n    on_goal 10 => norm_num\n    on_goal 9 => norm_num\n    on_goal 8 => norm_num\n"+eq)
    return t
ringall=''.join('    · ring\n' for _ in range(7))
def conv(a,b):
    r=[]
    for k in range(N):
        t=a[0]*b[k]
        for i in range(1,k+1): t=t+a[i]*b[k-i]
        r.append(t)
    return r
def convn(a,b): return [sum(a[i]*b[k-i] for i in range(k+1)) for k in range(N)]
def remn(a,b,ra,rb):
    t=f(0)
    for k in range(N,2*N-1): t+=E**(k-N)*sum(a[i]*b[k-i] for i in range(N) if 0<=k-i<N)
    return t+rb*sum(E**i*a[i] for i in range(N))+ra*sum(E**i*b[i] for i in range(N))+E**7*ra*rb
def mul(x,y,name,expr=None):
    return fin(expr or f'{x.name[1:]} * {y.name[1:]}',conv(x.co,y.co),convn(x.B,y.B),remn(x.B,y.B,x.R,y.R),name,f'TM.mul he {x.name} {y.name}',ringall)
def add(x,y,name,expr):
    return fin(expr,[p+q for p,q in zip(x.co,y.co)],[p+q for p,q in zip(x.B,y.B)],x.R+y.R,name,f'TM.add {x.name} {y.name}',ringall)
def smul(k,x,name,expr,kb,ht):
    kk=k if isinstance(k,P) else P.c(k)
    return fin(expr,[kk*p for p in x.co],[kb*p for p in x.B],kb*x.R,name,f'TM.smul {ht} {x.name}',ringall)
def shift(x,name,expr):
    return fin(expr,[P()]+x.co[:6],[f(0)]+x.B[:6],x.B[6]+E*x.R,name,f'TM.shift he {x.name}',ringall)
# base models
gco=[P.c(1)]+[P() for _ in range(6)]; dco=[P() for _ in range(7)]; gB=[f(1)]+[f(0)]*6; dB=[f(0)]*7
gtx=['1']+['']*6; dtx=['0']+['']*6
for l in C1p:
    for i in C1p[l]:
        k=C1p[l][i]
        gco[i]=gco[i]+2*l*k*cheb(l); gB[i]+=abs(2*l*k); gtx[i]+=f' + {sh(2*l*k)} * q{l}'
        dco[i]=dco[i]+2*k*U(l-1); dB[i]+=abs(2*k); dtx[i]+=f' + {sh(2*k)} * r{l}'
gtx=[x.removeprefix(' + ') for x in gtx]; dtx=[x.removeprefix(' + ') for x in dtx]
pol=lambda v:' + '.join((v[0] if i==0 else (f'e * ({v[i]})' if i==1 else f'e ^ {i} * ({v[i]})')) for i in range(N))
gexp=pol(gtx); dexp=pol(dtx)
hyp='\n    '.join([f'(hq{l} : q{l} = {cheb(l).show()}) (hr{l} : r{l} = s * ({U(l-1).show()}))' for l in range(1,7)])
bnd=' '.join(f'(bq{l} : |q{l}| ≤ 1) (br{l} : |r{l}| ≤ 1)' for l in range(1,7))
G=T('G',gco,[up(b) for b in gB],f(0),'hG0')
zz=lambda B:' '.join(sh(b) for b in B)
out.append(f"  have hGb : TM e G {' '.join('('+x+')' for x in gtx)} {zz(gB)} 0 := by\n    refine ⟨?_, ?_, ?_, ?_, ?_, ?_, ?_, 0, by simp, by rw [hG]; ring⟩\n    all_goals bdnum\n")
out.append(f"  have hub : TM e u {' '.join('('+x+')' for x in dtx)} {zz(dB)} 0 := by\n    refine ⟨?_, ?_, ?_, ?_, ?_, ?_, ?_, 0, by simp, by rw [hu]; ring⟩\n    on_goal 1 => simp\n    all_goals bdnum\n")
subst='subst '+' '.join(f'hq{l} hr{l}' for l in range(1,7))
G=fin('G',gco,gB,f(0),'hG0','hGb',''.join(f'    · {"norm_num" if i==0 else "rw ["+", ".join(f"hq{l}" for l in C1p if i in C1p[l])+"]; ring"}\n' for i in range(7)))
# u^2: coefficients (1-c^2) * conv(D,D)
s2=1-c**2
cc=conv(dco,dco)
def dform(i): return f'(s * ({dco[i].show()}))'
uS=fin('u',[None]*7,dB,f(0),'hu0','hub','') if False else None
# u with coefficients s*D_i
out.append(f"  have hu0 : TM e u {' '.join(dform(i) for i in range(7))} {zz([up(b) for b in dB])} 0 := by\n    refine hub.congr {' '.join(['?_']*15)}\n    on_goal 15 => norm_num\n    on_goal 14 => norm_num\n    on_goal 13 => norm_num\n    on_goal 12 => norm_num\n    on_goal 11 => norm_num\n    on_goal 10 => norm_num\n    on_goal 9 => norm_num\n    on_goal 8 => norm_num\n"+''.join(f'    · {"ring" if i==0 else "rw ["+", ".join(f"hr{l}" for l in C1p if i in C1p[l])+"]; ring"}\n' for i in range(7)))
dBu=[up(b) for b in dB]
u2=fin('u * u',[s2*p for p in cc],convn(dBu,dBu),remn(dBu,dBu,f(0),f(0)),'hu2','TM.mul he hu0 hu0',''.join(f'    · linear_combination ({cc[i].show()}) * hsc\n' for i in range(7)))
v=fin('s * u',[s2*p for p in dco],dBu,f(0),'hv','TM.smul hs hu0',''.join(f'    · linear_combination ({dco[i].show()}) * hsc\n' for i in range(7)))
def mulx(x,y,name,expr): return fin(expr,conv(x.co,y.co),convn(x.B,y.B),remn(x.B,y.B,x.R,y.R),name,f'TM.mul he {x.name} {y.name}',ringall)
u4=mulx(u2,u2,'hu4','u * u * (u * u)')
v3=mulx(v,u2,'hv3','s * u * (u * u)')
v5=mulx(v,u4,'hv5','s * u * (u * u * (u * u))')
# W = c * (1 - u2/2 + u4/24)
num=lambda q:f'(show |({sh(q)} : ℝ)| ≤ {sh(abs(q))} by rw [abs_le]; constructor <;> norm_num)'
one=T('1',[P.c(1)]+[P()]*6,[f(1)]+[f(0)]*6,f(0),'hone')
out.append("  have hone : TM e 1 1 0 0 0 0 0 0 1 0 0 0 0 0 0 0 := ⟨by simp, by simp, by simp, by simp, by simp, by simp, by simp, 0, by simp, by ring⟩\n")
a1=smul(-f(1,2),u2,'ha1','(-1/2) * (u * u)',f(1,2),num(-f(1,2)))
a2=smul(f(1,24),u4,'ha2','(1/24) * (u * u * (u * u))',f(1,24),num(f(1,24)))
a3=add(one,a1,'ha3','1 + (-1/2) * (u * u)')
W=add(a3,a2,'hW','1 + (-1/2) * (u * u) + (1/24) * (u * u * (u * u))')
b1=smul(-f(1,6),v3,'hb1','(-1/6) * (s * u * (u * u))',f(1,6),num(-f(1,6)))
b2=smul(f(1,120),v5,'hb2','(1/120) * (s * u * (u * u * (u * u)))',f(1,120),num(f(1,120)))
b3=add(v,b1,'hb3','s * u + (-1/6) * (s * u * (u * u))')
V=add(b3,b2,'hV','s * u + (-1/6) * (s * u * (u * u)) + (1/120) * (s * u * (u * u * (u * u)))')
cW=smul(-c,W,'hcW','(-c) * (1 + (-1/2) * (u * u) + (1/24) * (u * u * (u * u)))',f(1),'hc')
Z=add(cW,V,'hZ',f'{cW.x} + ({V.x})')
eZ=shift(Z,'heZ',f'e * ({Z.x})')
Ub=up(sum(E**(i-1)*dB[i] for i in range(1,7)))
errT=up(Ub**6/720+E*Ub**7/5040)
out.append(f'''  have hub' : |u| ≤ {sh(Ub)} * |e| := by
    have h1 : |{' + '.join((f'({dtx[i]})' if i==1 else (f'e * ({dtx[i]})' if i==2 else f'e ^ {i-1} * ({dtx[i]})')) for i in range(1,7))}| ≤ {sh(Ub)} := by bdnum
    have h2 : u = e * ({' + '.join((f'({dtx[i]})' if i==1 else (f'e * ({dtx[i]})' if i==2 else f'e ^ {i-1} * ({dtx[i]})')) for i in range(1,7))}) := by rw [hu]; ring
    rw [h2, abs_mul, mul_comm]
    exact mul_le_mul_of_nonneg_right h1 (abs_nonneg e)
  have hper : |e * (s * Real.sin u - c * Real.cos u) - e * ({Z.x})| ≤ {sh(errT)} * |e| ^ 7 := by
    have k1 := Bd.cos_taylor6 u
    have k2 := Bd.sin_taylor7 u
    have k3 : |u| ^ 6 ≤ ({sh(Ub)} * |e|) ^ 6 := pow_le_pow_left₀ (abs_nonneg u) hub' 6
    have k4 : |u| ^ 7 ≤ ({sh(Ub)} * |e|) ^ 7 := pow_le_pow_left₀ (abs_nonneg u) hub' 7
    have e1 : e * (s * Real.sin u - c * Real.cos u) - e * ({Z.x})
        = e * (s * (Real.sin u - (u - u ^ 3 / 6 + u ^ 5 / 120)) - c * (Real.cos u - (1 - u ^ 2 / 2 + u ^ 4 / 24))) := by ring
    have hc' : |c| ≤ 1 := by rw [← abs_neg]; exact hc
    have k5 := Bd.sub (Bd.mul hs k2) (Bd.mul hc' k1)
    rw [e1, abs_mul]
    have k6 : |e| * (1 * (|u| ^ 7 / 5040) + 1 * (|u| ^ 6 / 720)) ≤ |e| * ((({sh(Ub)} * |e|) ^ 7) / 5040 + (({sh(Ub)} * |e|) ^ 6) / 720) := by
      apply mul_le_mul_of_nonneg_left _ (abs_nonneg e); linarith
    refine (mul_le_mul_of_nonneg_left k5 (abs_nonneg e)).trans (k6.trans ?_)
    have k7 : |e| ^ 8 ≤ {sh(E)} * |e| ^ 7 := by
      rw [show |e| ^ 8 = |e| * |e| ^ 7 by ring]; exact mul_le_mul_of_nonneg_right he (by positivity)
    nlinarith [pow_nonneg (abs_nonneg e) 7]
  have hp := heZ.perturb (y := e * (s * Real.sin u - c * Real.cos u)) (by norm_num) hper
''')
eS=fin('e * (s * Real.sin u - c * Real.cos u)',eZ.co,eZ.B,eZ.R+errT,'heS','hp',ringall)
two=smul(f(2),eS,'h2S','2 * (e * (s * Real.sin u - c * Real.cos u))',f(2),num(f(2)))
esq=T('1 + e * e',[P.c(1),P(),P.c(1)]+[P()]*4,[f(1),f(0),f(1)]+[f(0)]*4,f(0),'hesq')
out.append("  have hesq : TM e (1 + e * e) 1 0 1 0 0 0 0 1 0 1 0 0 0 0 0 := ⟨by simp, by simp, by simp, by simp, by simp, by simp, by simp, 0, by simp, by ring⟩\n")
L=add(esq,two,'hL','1 + e * e + 2 * (e * (s * Real.sin u - c * Real.cos u))')
GG=mulx(G,G,'hGG','G * G')
Tt=mulx(GG,L,'hT',f'G * G * ({L.x})')
print([p.show() for p in Tt.co], float(Tt.R),[float(b) for b in GG.B], float(GG.R), float(L.R))
a=1+f(1,4)*e**2+f(1,64)*e**4+f(1,256)*e**6
a2=a*a; ac=a2.coeffs('e')
tail={k:v for k,v in ac.items() if k>=7}
K=up(Tt.R+sum(v.l1({})*E**(k-7) for k,v in tail.items()))
tailp=sum((v*e**(k-7) for k,v in tail.items()),P())
w=open('/verif/lean/Verif/Lemmas/KarneyRev.lean','w')
w.write(f'''import Verif.Lemmas.TM
import Verif.Lemmas.TrigTaylor
/-!
Generated by tools/series/karney_rev.py: the reversion series of `karney.py`, to order six.
-/
set_option linter.unusedVariables false
namespace KarneyRev

set_option maxHeartbeats 4000000 in
theorem core {{e c s u G {' '.join(f'q{l} r{l}' for l in range(1,7))} : ℝ}} (he : |e| ≤ {sh(E)}) (hsc : s ^ 2 = 1 - c ^ 2) (hs : |s| ≤ 1) (hc : |-c| ≤ 1)
    {hyp}
    {bnd}
    (hG : G = {gexp})
    (hu : u = {dexp}) :
    |G ^ 2 * (1 + e ^ 2 - 2 * e * (c * Real.cos u - s * Real.sin u)) - ({a.show()}) ^ 2| ≤ {sh(K)} * |e| ^ 7 := by
''')
w.write(''.join(out))
w.write(f'''  obtain ⟨-, -, -, -, -, -, -, r, hr, hx⟩ := hT
  have e2 : G ^ 2 * (1 + e ^ 2 - 2 * e * (c * Real.cos u - s * Real.sin u)) - ({a.show()}) ^ 2 = (r - ({tailp.show()})) * e ^ 7 := by
    linear_combination hx
  rw [e2, abs_mul, abs_pow]
  apply mul_le_mul_of_nonneg_right _ (by positivity)
  bdnum

end KarneyRev
''')
w.close(); print('K',K)
