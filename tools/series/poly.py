from fractions import Fraction as Fr
class P:
    """polynomial: dict monomial(tuple of (var,exp) sorted) -> Fraction"""
    def __init__(s,d=None): s.d={k:v for k,v in (d or {}).items() if v!=0}
    @staticmethod
    def c(x): return P({():Fr(x)})
    @staticmethod
    def v(n): return P({((n,1),):Fr(1)})
    def __add__(a,b):
        b=b if isinstance(b,P) else P.c(b); d=dict(a.d)
        for k,v in b.d.items(): d[k]=d.get(k,0)+v
        return P(d)
    __radd__=__add__
    def __neg__(a): return P({k:-v for k,v in a.d.items()})
    def __sub__(a,b): return a+(-(b if isinstance(b,P) else P.c(b)))
    def __rsub__(a,b): return (-a)+b
    def __mul__(a,b):
        b=b if isinstance(b,P) else P.c(b); d={}
        for k,v in a.d.items():
            for l,w in b.d.items():
                m=dict(k)
                for x,e in l: m[x]=m.get(x,0)+e
                m=tuple(sorted(m.items())); d[m]=d.get(m,0)+v*w
        return P(d)
    __rmul__=__mul__
    def __truediv__(a,b): return a*P.c(1/Fr(b))
    def __pow__(a,n):
        r=P.c(1)
        for _ in range(n): r=r*a
        return r
    def coeffs(a,x):
        r={}
        for k,v in a.d.items():
            m=dict(k); e=m.pop(x,0); r.setdefault(e,{})[tuple(sorted(m.items()))]=v
        return {e:P(d) for e,d in r.items()}
    def l1(a,bounds):
        t=Fr(0)
        for k,v in a.d.items():
            m=abs(v)
            for x,e in k: m*=Fr(bounds[x])**e
            t+=m
        return t
    def show(a):
        if not a.d: return '0'
        out=[]
        for k,v in sorted(a.d.items()):
            f=[f'({v.numerator}/{v.denominator})' if v.denominator!=1 else f'({v.numerator})']
            for x,e in k: f.append(x if e==1 else f'{x}^{e}')
            out.append(' * '.join(f))
        return ' + '.join(out)
