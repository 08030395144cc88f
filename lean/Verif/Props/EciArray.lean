import Verif.Model.Eci
import Verif.Props.Eci
import Mathlib.Tactic.SplitIfs
/-!
# C60: array arguments of the ECI conversions

The theorems of this file hold for every arithmetic `F` (in particular binary64).
-/
set_option linter.unusedSectionVars false
namespace Pymap3d
open Py

section
variable {F : Type}

/-- the elements of a scalar or array in C order -/
def NpVal.elems : NpVal F → List F
  | .num x => [x]
  | .arr a => a.data

/-- the shape of a scalar or array -/
def NpVal.dims : NpVal F → List Nat
  | .num _ => []
  | .arr a => a.shape

/-- an array has as many elements as its shape says -/
def NpVal.WF : NpVal F → Prop
  | .num _ => True
  | .arr a => a.WF

/-- the shape with scalars counted as length-one vectors -/
def NpVal.dims1 (v : NpVal F) : List Nat := if v.dims = [] then [1] else v.dims

theorem atleast1d_shape (v : NpVal F) : (atleast1d v).shape = v.dims1 := by
  cases v with
  | num x => rfl
  | arr a => by_cases h : a.shape = [] <;> simp [atleast1d, NpVal.dims1, NpVal.dims, h]

theorem atleast1d_data (v : NpVal F) : (atleast1d v).data = v.elems := by
  cases v with
  | num x => rfl
  | arr a => simp only [atleast1d, NpVal.elems]; split_ifs <;> rfl

theorem squeeze_elems (v : NpVal F) : (squeeze v).elems = v.elems := by
  cases v with
  | num x => rfl
  | arr a =>
    simp only [squeeze]
    split
    · rename_i h1 h2; simp [NpVal.elems, h2]
    · rfl

theorem squeeze_dims (v : NpVal F) : (squeeze v).dims = v.dims.filter (· ≠ 1) := by
  cases v with
  | num x => rfl
  | arr a =>
    simp only [squeeze]
    split
    · rename_i h1 h2; simp only [NpVal.dims, h1]
    · rfl

theorem wf_length (v : NpVal F) (h : v.WF) : v.elems.length = v.dims1.prod := by
  cases v with
  | num x => rfl
  | arr a =>
    have h' : a.data.length = a.shape.prod := h
    by_cases hs : a.shape = []
    · simp only [NpVal.elems, NpVal.dims1, NpVal.dims, hs, if_true, List.prod_nil] at h' ⊢; simpa using h'
    · simp only [NpVal.elems, NpVal.dims1, NpVal.dims, hs, if_false]; exact h'

theorem columnStack_length (x y z : List F) (h1 : x.length = y.length) (h2 : y.length = z.length) :
    (columnStack x y z).length = x.length := by
  simp [columnStack, h1, h2]

theorem columnStack_get (x y z : List F) (i : Nat) (a b c : F) (ha : x[i]? = some a) (hb : y[i]? = some b)
    (hc : z[i]? = some c) : (columnStack x y z)[i]? = some (a, b, c) := by
  simp [columnStack, List.getElem?_zipWith, ha, hb, hc]

theorem reshape_ok (d : List F) (s : List Nat) (h : d.length = s.prod) : reshape d s = .ok ⟨s, d⟩ := by
  simp only [reshape, if_pos h]

theorem filter_ne_one_dims1 (v : NpVal F) : v.dims1.filter (· ≠ 1) = v.dims.filter (· ≠ 1) := by
  unfold NpVal.dims1; split_ifs with h
  · rw [h]; rfl
  · rfl

/-- The specification of "applied elementwise": the result has the shape of the arguments without axes of
length one, as many elements as the arguments, and the `i`-th elements are the scalar function of the
`i`-th elements. -/
def AppliedElementwise (f : F → F → F → Except PyErr (F × F × F)) (X Y Z : NpVal F)
    (r : NpVal F × NpVal F × NpVal F) : Prop :=
  r.1.dims = X.dims.filter (· ≠ 1) ∧ r.2.1.dims = Y.dims.filter (· ≠ 1) ∧ r.2.2.dims = Z.dims.filter (· ≠ 1) ∧
  r.1.elems.length = X.elems.length ∧ r.2.1.elems.length = Y.elems.length ∧ r.2.2.elems.length = Z.elems.length ∧
  ∀ (i : Nat) (a b c : F), X.elems[i]? = some a → Y.elems[i]? = some b → Z.elems[i]? = some c →
    ∃ p, f a b c = .ok p ∧ r.1.elems[i]? = some p.1 ∧ r.2.1.elems[i]? = some p.2.1 ∧ r.2.2.elems[i]? = some p.2.2

end

section
variable {F : Type} [Add F] [Sub F] [Mul F] [Div F] [Neg F] [Pow F Nat] [OfScientific F] [LT F] [LE F]
  [DecidableLT F] [DecidableLE F] [PyMath F]

/-- what the array path of `_apply_rotation` returns -/
theorem applyRotation_array (m : Mat3 F) (X Y Z : NpVal F) (hX : X.WF) (hY : Y.WF) (hZ : Z.WF)
    (h1 : X.dims1 = Y.dims1) (h2 : Y.dims1 = Z.dims1) :
    applyRotation true m X Y Z = .ok
      (.arr ⟨X.dims1, (columnStack X.elems Y.elems Z.elems).map (fun v => (matvec3 m v).1)⟩,
       .arr ⟨X.dims1, (columnStack X.elems Y.elems Z.elems).map (fun v => (matvec3 m v).2.1)⟩,
       .arr ⟨X.dims1, (columnStack X.elems Y.elems Z.elems).map (fun v => (matvec3 m v).2.2)⟩) := by
  have l1 := wf_length X hX
  have l2 := wf_length Y hY
  have l3 := wf_length Z hZ
  have hl := columnStack_length X.elems Y.elems Z.elems (by rw [l1, l2, h1]) (by rw [l2, l3, h2])
  simp only [applyRotation, if_true, atleast1d_shape, atleast1d_data, h1, h2, and_self, List.map_map]
  rw [reshape_ok _ _ (by rw [List.length_map, hl, l1, h1, h2]), reshape_ok _ _ (by rw [List.length_map, hl, l1, h1, h2]),
    reshape_ok _ _ (by rw [List.length_map, hl, l1, h1, h2])]
  rfl

theorem squeezed_elementwise (m : Mat3 F) (f : F → F → F → Except PyErr (F × F × F))
    (hf : ∀ a b c, f a b c = .ok (matvec3 m (a, b, c))) (X Y Z : NpVal F) (hX : X.WF) (hY : Y.WF) (hZ : Z.WF)
    (h1 : X.dims1 = Y.dims1) (h2 : Y.dims1 = Z.dims1) :
    ∃ r, applyRotation true m X Y Z = .ok r ∧
      AppliedElementwise f X Y Z (squeeze (squeeze r.1), squeeze (squeeze r.2.1), squeeze (squeeze r.2.2)) := by
  refine ⟨_, applyRotation_array m X Y Z hX hY hZ h1 h2, ?_⟩
  have l1 := wf_length X hX
  have l2 := wf_length Y hY
  have l3 := wf_length Z hZ
  have hl := columnStack_length X.elems Y.elems Z.elems (by rw [l1, l2, h1]) (by rw [l2, l3, h2])
  have hxy : X.dims.filter (· ≠ 1) = Y.dims.filter (· ≠ 1) := by
    rw [← filter_ne_one_dims1 X, ← filter_ne_one_dims1 Y, h1]
  have hyz : Y.dims.filter (· ≠ 1) = Z.dims.filter (· ≠ 1) := by
    rw [← filter_ne_one_dims1 Y, ← filter_ne_one_dims1 Z, h2]
  have hd : ∀ D : List F, (squeeze (squeeze (.arr ⟨X.dims1, D⟩))).dims = X.dims.filter (· ≠ 1) := by
    intro D
    rw [squeeze_dims, squeeze_dims, ← filter_ne_one_dims1 X]
    simp [NpVal.dims]
  have he : ∀ D : List F, (squeeze (squeeze (.arr ⟨X.dims1, D⟩))).elems = D := by
    intro D
    rw [squeeze_elems, squeeze_elems]; rfl
  simp only [AppliedElementwise, hd, he, List.length_map, hl, List.getElem?_map]
  refine ⟨trivial, hxy, hxy.trans hyz, trivial, by rw [l1, l2, h1], by rw [l1, l3, h1, h2], ?_⟩
  intro i a b c ha hb hc
  rw [columnStack_get _ _ _ i a b c ha hb hc]
  exact ⟨_, hf a b c, rfl, rfl, rfl⟩

/-- **C60.** `eci2ecef` and `ecef2eci` on arrays (or scalars) of equal shape act elementwise, whatever the
number of elements and dimensions; they succeed whenever the scalar function does. -/
theorem eci_elementwise (X Y Z : NpVal F) (hX : X.WF) (hY : Y.WF) (hZ : Z.WF)
    (h1 : X.dims1 = Y.dims1) (h2 : Y.dims1 = Z.dims1) (time : DateTime) (d xp yp : F) :
    ((∃ a b c p, eci2ecef a b c time d xp yp = .ok p) →
      ∃ r, eci2ecefNp true X Y Z time d xp yp = .ok r ∧
        AppliedElementwise (fun a b c => eci2ecef a b c time d xp yp) X Y Z r) ∧
    ((∃ a b c p, ecef2eci a b c time d xp yp = .ok p) →
      ∃ r, ecef2eciNp true X Y Z time d xp yp = .ok r ∧
        AppliedElementwise (fun a b c => ecef2eci a b c time d xp yp) X Y Z r) := by
  cases hm : eciToEcefMatrix time d xp yp with
  | error e =>
    constructor
    · rintro ⟨a, b, c, p, h⟩; simp only [eci2ecef, hm] at h; cases h
    · rintro ⟨a, b, c, p, h⟩; simp only [ecef2eci, hm] at h; cases h
  | ok m =>
    constructor
    · intro _
      obtain ⟨r, hr, he⟩ := squeezed_elementwise m (fun a b c => eci2ecef a b c time d xp yp)
        (fun a b c => by simp only [eci2ecef, hm]; rfl) X Y Z hX hY hZ h1 h2
      exact ⟨_, by simp only [eci2ecefNp, hm, bind, Except.bind, hr]; rfl, he⟩
    · intro _
      obtain ⟨r, hr, he⟩ := squeezed_elementwise (transpose3 m) (fun a b c => ecef2eci a b c time d xp yp)
        (fun a b c => by simp only [ecef2eci, hm]; rfl) X Y Z hX hY hZ h1 h2
      exact ⟨_, by simp only [ecef2eciNp, hm, bind, Except.bind, hr]; rfl, he⟩

/-- **C60.** If the scalar function raises (an impossible date), so do the array functions, with the same
exception; unequal shapes raise `AssertionError`. -/
theorem eci_array_errors (X Y Z : NpVal F) (time : DateTime) (d xp yp : F) :
    (∀ e a b c, eci2ecef a b c time d xp yp = .error e → eci2ecefNp true X Y Z time d xp yp = .error e) ∧
    (∀ e a b c, ecef2eci a b c time d xp yp = .error e → ecef2eciNp true X Y Z time d xp yp = .error e) ∧
    (∀ a b c p, eci2ecef a b c time d xp yp = .ok p → ¬ (X.dims1 = Y.dims1 ∧ Y.dims1 = Z.dims1) →
      eci2ecefNp true X Y Z time d xp yp = .error (.assertionError "shape mismatch") ∧
      ecef2eciNp true X Y Z time d xp yp = .error (.assertionError "shape mismatch")) := by
  cases hm : eciToEcefMatrix time d xp yp with
  | error e =>
    refine ⟨?_, ?_, ?_⟩
    · intro e' a b c h; simp only [eci2ecef, hm] at h; cases h; simp only [eci2ecefNp, hm]; rfl
    · intro e' a b c h; simp only [ecef2eci, hm] at h; cases h; simp only [ecef2eciNp, hm]; rfl
    · intro a b c p h; simp only [eci2ecef, hm] at h; cases h
  | ok m =>
    refine ⟨?_, ?_, ?_⟩
    · intro e' a b c h; simp only [eci2ecef, hm] at h; cases h
    · intro e' a b c h; simp only [ecef2eci, hm] at h; cases h
    · intro a b c p _ hne
      simp only [eci2ecefNp, ecef2eciNp, hm, applyRotation, if_true, atleast1d_shape, if_neg hne]
      exact ⟨rfl, rfl⟩

/-- **C60.** without numpy an array (list) argument raises `TypeError` -/
theorem eci_no_numpy (x y z : F) (L : NdArray F) (time : DateTime) (d xp yp : F) (p : F × F × F)
    (h : eci2ecef x y z time d xp yp = .ok p) :
    eci2ecefNp false (.num x) (.num y) (.num z) time d xp yp = .ok (.num p.1, .num p.2.1, .num p.2.2) ∧
    (∃ msg, eci2ecefNp false (.arr L) (.num y) (.num z) time d xp yp = .error (.typeError msg)) := by
  cases hm : eciToEcefMatrix time d xp yp with
  | error e => simp only [eci2ecef, hm] at h; cases h
  | ok m =>
    simp only [eci2ecef, hm] at h
    cases h
    simp only [eci2ecefNp, hm]
    exact ⟨rfl, _, rfl⟩

/-! ### states -/

theorem stateRows_length (P V : List (F × F × F)) (m R : Mat3 F) (inv : Bool) (h : P.length = V.length) :
    (List.zipWith (fun p v => applyStateRotationScalar m R ⟨p, v⟩ inv) P V).length = P.length := by
  simp [h]

/-- a state whose six components have a common shape -/
structure PosVelNp.SameShape (s : PosVelNp F) (sh : List Nat) : Prop where
  x : s.x.dims1 = sh
  y : s.y.dims1 = sh
  z : s.z.dims1 = sh
  vx : s.vx.dims1 = sh
  vy : s.vy.dims1 = sh
  vz : s.vz.dims1 = sh
  wx : s.x.WF
  wy : s.y.WF
  wz : s.z.WF
  wvx : s.vx.WF
  wvy : s.vy.WF
  wvz : s.vz.WF

/-- the scalar function selected by `inverse` -/
def stateScalar (inverse : Bool) (s : PosVel F) (time : DateTime) (d xp yp : F) : Except PyErr (PosVel F) :=
  if inverse then ecef2eciState s time d xp yp else eci2ecefState s time d xp yp

theorem stateScalar_ok {inverse : Bool} {s S : PosVel F} {time : DateTime} {d xp yp : F}
    (h : stateScalar inverse s time d xp yp = .ok S) :
    ∃ m R, eciToEcefMatrix time d xp yp = .ok m ∧ eciToEcefMatrixRate time d xp yp = .ok R ∧
      S = applyStateRotationScalar m R s inverse := by
  cases hm : eciToEcefMatrix time d xp yp with
  | error e => cases inverse <;> simp only [stateScalar, eci2ecefState, ecef2eciState, hm, if_true, Bool.false_eq_true, if_false] at h <;> cases h
  | ok m =>
    cases hR : eciToEcefMatrixRate time d xp yp with
    | error e => cases inverse <;> simp only [stateScalar, eci2ecefState, ecef2eciState, hm, hR, if_true, Bool.false_eq_true, if_false] at h <;> cases h
    | ok R =>
      refine ⟨m, R, rfl, rfl, ?_⟩
      cases inverse <;> simp only [stateScalar, eci2ecefState, ecef2eciState, hm, hR, if_true, Bool.false_eq_true, if_false] at h <;>
        cases h <;> rfl

/-- **C60, a defect.** `eci2ecef_state` and `ecef2eci_state` raise `ValueError` for every array
argument with two or more elements: the loop overwrites the variables whose shape is used
afterwards. -/
theorem state_array_fails (inverse : Bool) (s : PosVelNp F) (sh : List Nat) (hs : s.SameShape sh) (h2 : 2 ≤ sh.prod)
    (s0 S0 : PosVel F) (time : DateTime) (d xp yp : F) (hok : stateScalar inverse s0 time d xp yp = .ok S0) :
    stateNp true inverse s time d xp yp = .error (.valueError "cannot reshape array") := by
  obtain ⟨m, R, hm, hR, -⟩ := stateScalar_ok hok
  have l1 := wf_length s.x hs.wx
  have l2 := wf_length s.y hs.wy
  have l3 := wf_length s.z hs.wz
  have l4 := wf_length s.vx hs.wvx
  have l5 := wf_length s.vy hs.wvy
  have l6 := wf_length s.vz hs.wvz
  rw [hs.x] at l1; rw [hs.y] at l2; rw [hs.z] at l3; rw [hs.vx] at l4; rw [hs.vy] at l5; rw [hs.vz] at l6
  have hl := stateRows_length (columnStack s.x.elems s.y.elems s.z.elems) (columnStack s.vx.elems s.vy.elems s.vz.elems)
    m R inverse (by rw [columnStack_length _ _ _ (by omega) (by omega), columnStack_length _ _ _ (by omega) (by omega)]; omega)
  rw [columnStack_length _ _ _ (by omega) (by omega), l1] at hl
  simp only [stateNp, hm, hR, applyStateRotation, if_true, atleast1d_shape, atleast1d_data, hs.x, hs.y, hs.z, hs.vx, hs.vy,
    hs.vz, and_self, bind, Except.bind, hl]
  have h0 : sh.prod ≠ 0 := by omega
  have h1 : sh.prod ≠ 1 := by omega
  simp only [reshape, List.length_map, hl, if_neg h0, List.prod_nil, if_neg h1]

/-- **C60.** with one element the state functions agree with the scalar ones -/
theorem state_array_single (inverse : Bool) (s : PosVelNp F) (sh : List Nat) (hs : s.SameShape sh)
    (x y z vx vy vz : F) (hx : s.x.elems = [x]) (hy : s.y.elems = [y]) (hz : s.z.elems = [z])
    (hvx : s.vx.elems = [vx]) (hvy : s.vy.elems = [vy]) (hvz : s.vz.elems = [vz])
    (S : PosVel F) (time : DateTime) (d xp yp : F)
    (hok : stateScalar inverse ⟨(x, y, z), (vx, vy, vz)⟩ time d xp yp = .ok S) :
    stateNp true inverse s time d xp yp = .ok ⟨.num S.pos.1, .num S.pos.2.1, .num S.pos.2.2,
      .num S.vel.1, .num S.vel.2.1, .num S.vel.2.2⟩ := by
  obtain ⟨m, R, hm, hR, rfl⟩ := stateScalar_ok hok
  simp only [stateNp, hm, hR, applyStateRotation, if_true, atleast1d_shape, atleast1d_data, hs.x, hs.y, hs.z, hs.vx, hs.vy,
    hs.vz, and_self, hx, hy, hz, hvx, hvy, hvz]
  rfl

/-- **C60.** with no elements the result is empty -/
theorem state_array_empty (inverse : Bool) (s : PosVelNp F) (sh : List Nat) (hs : s.SameShape sh) (h0 : sh.prod = 0)
    (s0 S0 : PosVel F) (time : DateTime) (d xp yp : F) (hok : stateScalar inverse s0 time d xp yp = .ok S0) :
    stateNp true inverse s time d xp yp = .ok
      (let e : NpVal F := .arr ⟨sh.filter (· ≠ 1), []⟩; ⟨e, e, e, e, e, e⟩) := by
  obtain ⟨m, R, hm, hR, -⟩ := stateScalar_ok hok
  have nil : ∀ v : NpVal F, v.WF → v.dims1 = sh → v.elems = [] := by
    intro v hw hd
    have := wf_length v hw
    rw [hd, h0] at this
    exact List.eq_nil_of_length_eq_zero this
  simp only [stateNp, hm, hR, applyStateRotation, if_true, atleast1d_shape, atleast1d_data, hs.x, hs.y, hs.z, hs.vx, hs.vy,
    hs.vz, and_self, bind, Except.bind, nil _ hs.wx hs.x, nil _ hs.wy hs.y, nil _ hs.wz hs.z, nil _ hs.wvx hs.vx, nil _ hs.wvy hs.vy,
    nil _ hs.wvz hs.vz]
  have hr : reshape ([] : List F) sh = .ok ⟨sh, []⟩ := reshape_ok _ _ (by simp [h0])
  simp only [columnStack, List.zipWith_nil_left, List.map_nil, List.length_nil, if_true, hr]
  have hq : squeeze (.arr ⟨sh, []⟩ : NpVal F) = .arr ⟨sh.filter (· ≠ 1), []⟩ := by
    simp only [squeeze]
    split
    · rename_i h; cases h
    · rfl
  show Except.ok (squeezeState _) = _
  simp only [squeezeState, hq]

end

/-! non-vacuity -/
section
variable (x y : ℝ)

example : ∃ r, eci2ecefNp true (.arr ⟨[2, 1], [7000000, x]⟩) (.arr ⟨[2, 1], [0, y]⟩) (.arr ⟨[2, 1], [1, 2]⟩)
    exampleIst (0.1 : ℝ) 0.05 0.3 = .ok r ∧
      AppliedElementwise (fun a b c => eci2ecef a b c exampleIst (0.1 : ℝ) 0.05 0.3) (.arr ⟨[2, 1], [7000000, x]⟩)
        (.arr ⟨[2, 1], [0, y]⟩) (.arr ⟨[2, 1], [1, 2]⟩) r := by
  obtain ⟨q, hq⟩ := example_eci
  apply (eci_elementwise (F := ℝ) (.arr ⟨[2, 1], [7000000, x]⟩) (.arr ⟨[2, 1], [0, y]⟩) (.arr ⟨[2, 1], [1, 2]⟩)
    ?_ ?_ ?_ ?_ ?_ exampleIst 0.1 0.05 0.3).1 ⟨7000000, 0, 0, q, hq⟩
  all_goals simp [NpVal.WF, NdArray.WF, NpVal.dims1, NpVal.dims]

example : stateNp true false ⟨.arr ⟨[2], [7000000, x]⟩, .arr ⟨[2], [0, 0]⟩, .arr ⟨[2], [0, 0]⟩, .arr ⟨[2], [0, 0]⟩,
    .arr ⟨[2], [7500, y]⟩, .arr ⟨[2], [0, 0]⟩⟩ exampleIst (0.1 : ℝ) 0.05 0.3 =
      .error (.valueError "cannot reshape array") := by
  obtain ⟨_, _, _, _, ⟨S, hS⟩, _⟩ := state_total_inside ⟨(7000000, 0, 0), (0, 7500, 0)⟩ exampleIst exampleIst_valid
    0.1 0.05 0.3 (by rw [abs_le]; constructor <;> norm_num) (by rw [exampleIst_instant]; norm_num)
    (by rw [exampleIst_instant]; norm_num)
  refine state_array_fails false _ [2] ?_ (by decide) _ S _ _ _ _ hS
  constructor <;> simp [NpVal.WF, NdArray.WF, NpVal.dims1, NpVal.dims]

end

end Pymap3d
