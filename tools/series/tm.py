"""generates lean/Verif/Lemmas/TM.lean: Taylor models of order six in one small variable"""
N=7
xs=[f'x{i}' for i in range(N)]; ys=[f'y{i}' for i in range(N)]
Xs=[f'X{i}' for i in range(N)]; Ys=[f'Y{i}' for i in range(N)]
def poly(v,e): return ' + '.join((v[0] if i==0 else (f'{e} * {v[i]}' if i==1 else f'{e} ^ {i} * {v[i]}')) for i in range(N))
def conv(a,b,k): return ' + '.join(f'{a[i]} * {b[k-i]}' for i in range(k+1))
def rem(a,b,ra,rb,e):
    t=[]
    for k in range(N,2*N-1):
        s=' + '.join(f'{a[i]} * {b[k-i]}' for i in range(N) if 0<=k-i<N)
        t.append(f'({s})' if k==N else (f'{e} * ({s})' if k==N+1 else f'{e} ^ {k-N} * ({s})'))
    t.append(f'{rb} * ({poly(a,e)})'); t.append(f'{ra} * ({poly(b,e)})'); t.append(f'{e} ^ 7 * ({ra} * {rb})')
    return ' + '.join(t)
w=open('/verif/lean/Verif/Lemmas/TM.lean','w')
args=lambda v:' '.join(v)
w.write(f'''import Verif.Lemmas.Bd
import Mathlib.Tactic.LinearCombination
/-!
Generated by tools/series/tm.py: Taylor models of order six in a small variable `e`.
-/

/-- `x = x0 + e x1 + ... + e^6 x6 + e^7 r` with bounds for all coefficients and for `r` -/
structure TM (e x {args(xs)} {args(Xs)} R : ℝ) : Prop where
''')
for i in range(N): w.write(f'  b{i} : |x{i}| ≤ X{i}\n')
w.write(f'''  rem : ∃ r, |r| ≤ R ∧ x = {poly(xs,'e')} + e ^ 7 * r

namespace TM
variable {{e E x y {args(xs)} {args(ys)} {args(Xs)} {args(Ys)} R S : ℝ}}

theorem mul (he : |e| ≤ E) (hx : TM e x {args(xs)} {args(Xs)} R) (hy : TM e y {args(ys)} {args(Ys)} S) :
    TM e (x * y) {' '.join('('+conv(xs,ys,k)+')' for k in range(N))} {' '.join('('+conv(Xs,Ys,k)+')' for k in range(N))}
      ({rem(Xs,Ys,'R','S','E')}) := by
''')
for v in 'xy':
    w.write(f'  obtain ⟨{", ".join(f"h{v}{i}" for i in range(N))}, r{v}, hr{v}, h{v}⟩ := h{v}\n')
w.write('  refine ⟨'+', '.join(['?_']*N)+f''', {rem(xs,ys,'rx','ry','e')}, ?_, ?_⟩
  any_goals bd
  rw [hx, hy]; ring

theorem add (hx : TM e x {args(xs)} {args(Xs)} R) (hy : TM e y {args(ys)} {args(Ys)} S) :
    TM e (x + y) {' '.join(f'(x{i} + y{i})' for i in range(N))} {' '.join(f'(X{i} + Y{i})' for i in range(N))} (R + S) := by
''')
for v in 'xy':
    w.write(f'  obtain ⟨{", ".join(f"h{v}{i}" for i in range(N))}, r{v}, hr{v}, h{v}⟩ := h{v}\n')
w.write('  refine ⟨'+', '.join(['?_']*N)+''', rx + ry, ?_, ?_⟩
  any_goals bd
  rw [hx, hy]; ring

/-- multiplication by a number -/
theorem smul {t T : ℝ} (ht : |t| ≤ T) (hx : TM e x '''+args(xs)+' '+args(Xs)+f''' R) :
    TM e (t * x) {' '.join(f'(t * x{i})' for i in range(N))} {' '.join(f'(T * X{i})' for i in range(N))} (T * R) := by
  obtain ⟨{", ".join(f"hx{i}" for i in range(N))}, rx, hrx, hx⟩ := hx
  refine ⟨{', '.join(['?_']*N)}, t * rx, ?_, ?_⟩
  any_goals bd
  rw [hx]; ring

/-- other forms of the coefficients, and weaker bounds -/
theorem congr {{{args(ys)} {args(['Z%d'%i for i in range(N)])} T : ℝ}} (hx : TM e x {args(xs)} {args(Xs)} R) {' '.join(f'(e{i} : x{i} = y{i})' for i in range(N))}
    {' '.join(f'(h{i} : X{i} ≤ Z{i})' for i in range(N))} (hT : R ≤ T) : TM e x {args(ys)} {' '.join('Z%d'%i for i in range(N))} T := by
  subst {' '.join(f'e{i}' for i in range(N))}
  obtain ⟨{", ".join(f"hx{i}" for i in range(N))}, rx, hrx, hx⟩ := hx
  exact ⟨{', '.join(f'hx{i}.trans h{i}' for i in range(N))}, rx, hrx.trans hT, hx⟩

/-- weaker bounds -/
theorem weaken {{{args(['Z%d'%i for i in range(N)])} T : ℝ}} (hx : TM e x {args(xs)} {args(Xs)} R) {' '.join(f'(h{i} : X{i} ≤ Z{i})' for i in range(N))} (hT : R ≤ T) :
    TM e x {args(xs)} {' '.join('Z%d'%i for i in range(N))} T := by
  obtain ⟨{", ".join(f"hx{i}" for i in range(N))}, rx, hrx, hx⟩ := hx
  exact ⟨{', '.join(f'hx{i}.trans h{i}' for i in range(N))}, rx, hrx.trans hT, hx⟩

/-- multiplication by the small variable; the sixth order becomes remainder -/
theorem shift (he : |e| ≤ E) (hx : TM e x {args(xs)} {args(Xs)} R) :
    TM e (e * x) 0 {args(xs[:6])} 0 {args(Xs[:6])} (X6 + E * R) := by
  obtain ⟨{", ".join(f"hx{i}" for i in range(N))}, rx, hrx, hx⟩ := hx
  refine ⟨by simp, {', '.join(f'hx{i}' for i in range(6))}, x6 + e * rx, ?_, ?_⟩
  · bd
  · rw [hx]; ring

/-- an additional error of order seven -/
theorem perturb {{T : ℝ}} (hx : TM e x {args(xs)} {args(Xs)} R) (hT : 0 ≤ T) (hy : |y - x| ≤ T * |e| ^ 7) :
    TM e y {args(xs)} {args(Xs)} (R + T) := by
  obtain ⟨{", ".join(f"hx{i}" for i in range(N))}, rx, hrx, hx⟩ := hx
  refine ⟨{', '.join(f'hx{i}' for i in range(N))}, rx + (y - x) / e ^ 7, ?_, ?_⟩
  · apply Bd.add hrx
    rcases eq_or_ne e 0 with h | h
    · subst h
      have h0 : |y - x| ≤ 0 := by simpa using hy
      have h1 := abs_nonneg (y - x)
      rw [abs_div, le_antisymm h0 h1, zero_div]; exact hT
    · rw [abs_div, div_le_iff₀ (by positivity), abs_pow]; exact hy
  · rcases eq_or_ne e 0 with h | h
    · subst h
      have h0 : |y - x| ≤ 0 := by simpa using hy
      have := abs_nonpos_iff.mp h0
      have : y = x := by linarith
      rw [this, hx]; simp
    · field_simp; rw [hx]; ring

end TM
''')
