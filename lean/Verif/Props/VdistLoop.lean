import Verif.Props.Vincenty
import Verif.Props.VdistEquator

set_option linter.unusedSectionVars false

namespace Pymap3d
open Py

section generic
variable {F : Type} [Add F] [Sub F] [Mul F] [Div F] [Neg F] [Pow F Nat] [OfScientific F] [LT F] [LE F] [DecidableLT F]
  [DecidableLE F] [PyMath F]

/-- the successive array states of the iteration of `vdist`, without any of its exits -/
def vIterArr (f : F) (ps : List (VPair F × VState F)) : Nat → List (VPair F × VState F)
  | 0 => ps
  | k + 1 => vdistBodyArr f ((vIterArr f ps k).map fun p => (p.1, p.2.lamb))

/-- some element still moves by more than `1e-12` between step `k` and step `k + 1` -/
def vMoving (f : F) (ps : List (VPair F × VState F)) (k : Nat) : Bool :=
  (List.zip (vIterArr f ps k) (vIterArr f ps (k + 1))).any fun q => decide (1e-12 < Py.abs (q.2.2.lamb - q.1.2.lamb))

/-- some element of step `k + 1` exceeds pi -/
def vOver (f : F) (ps : List (VPair F × VState F)) (k : Nat) : Bool :=
  (vIterArr f ps (k + 1)).any fun p => decide (pi < p.2.lamb)

theorem vdistLoopArr_step (f : F) (ps : List (VPair F × VState F)) (n : Nat) (hn : n < 50) :
    vdistLoopArr f n (vIterArr f ps n) =
      if vOver f ps n then some (true, (vIterArr f ps (n + 1)).map fun p => (p.1, { p.2 with lamb := pi }))
      else if vMoving f ps n then vdistLoopArr f (n + 1) (vIterArr f ps (n + 1)) else some (false, vIterArr f ps (n + 1)) := by
  rw [vdistLoopArr, if_neg (by omega)]
  rfl

theorem vdistLoopArr_reach (f : F) (ps : List (VPair F × VState F)) (n : Nat) (hn : n ≤ 50)
    (h : ∀ k < n, vOver f ps k = false ∧ vMoving f ps k = true) :
    vdistLoopArr f 0 ps = vdistLoopArr f n (vIterArr f ps n) := by
  induction n with
  | zero => rfl
  | succ n ih =>
    rw [ih (by omega) (fun k hk => h k (by omega)), vdistLoopArr_step f ps n (by omega), (h n (by omega)).1, (h n (by omega)).2]
    rfl

/-- **C40.** The exits of the iteration on arrays: the first step at which some element exceeds pi, the first step at which
no element moves by more than `1e-12`, or 50 steps. -/
theorem vdistLoopArr_exits (f : F) (ps : List (VPair F × VState F)) :
    (∀ n < 50, (∀ k < n, vOver f ps k = false ∧ vMoving f ps k = true) → vOver f ps n = true →
      vdistLoopArr f 0 ps = some (true, (vIterArr f ps (n + 1)).map fun p => (p.1, { p.2 with lamb := pi }))) ∧
    (∀ n < 50, (∀ k < n, vOver f ps k = false ∧ vMoving f ps k = true) → vOver f ps n = false → vMoving f ps n = false →
      vdistLoopArr f 0 ps = some (false, vIterArr f ps (n + 1))) ∧
    ((∀ k < 50, vOver f ps k = false ∧ vMoving f ps k = true) →
      vdistLoopArr f 0 ps = some (true, (vIterArr f ps 50).map fun p => (p.1, { p.2 with lamb := pi }))) := by
  refine ⟨fun n hn h h1 => ?_, fun n hn h h1 h2 => ?_, fun h => ?_⟩
  · rw [vdistLoopArr_reach f ps n hn.le h, vdistLoopArr_step f ps n hn, h1]
    rfl
  · rw [vdistLoopArr_reach f ps n hn.le h, vdistLoopArr_step f ps n hn, h1, h2]
    rfl
  · rw [vdistLoopArr_reach f ps 50 (by omega) h, vdistLoopArr, if_pos (by omega)]

theorem vdistBodyArr_length (f : F) (ps : List (VPair F × F)) : (vdistBodyArr f ps).length = ps.length := by
  simp only [vdistBodyArr, List.length_map]

theorem vIterArr_length (f : F) (ps : List (VPair F × VState F)) (k : Nat) : (vIterArr f ps k).length = ps.length := by
  induction k with
  | zero => rfl
  | succ k ih => simp only [vIterArr, vdistBodyArr_length, List.length_map, ih]

/-- the start of the iteration for a list of points in radians -/
def vStart (f : F) (pts : List (F × F × F × F)) : List (VPair F × VState F) :=
  pts.map fun p =>
    let L := vLonDiff p.2.1 p.2.2.2
    (⟨vReduced f (polarAdjust p.1), vReduced f (polarAdjust p.2.2.1), L, pymod p.2.1 (2.0 * pi), pymod p.2.2.2 (2.0 * pi)⟩,
      ⟨L, L, L, L⟩)

/-- the angles of a list of points in radians -/
def vRad (deg : Bool) (pts : List (F × F × F × F)) : List (F × F × F × F) :=
  pts.map fun p => (inAngle deg p.1, inAngle deg p.2.1, inAngle deg p.2.2.1, inAngle deg p.2.2.2)

/-- **C40.** `vdist` on arrays of two or more accepted points always returns, and raises `ValueError` exactly when the common
iteration runs through 50 steps or lets some element exceed pi; one such pair spoils the whole array. -/
theorem vdistArr_error_iff (pts : List (F × F × F × F)) (ell : Option (Ellipsoid F)) (deg : Bool) (hlen : 2 ≤ pts.length)
    (hok : ((vRad deg pts).any fun p => decide (pi / 2.0 < Py.abs p.1) || decide (pi / 2.0 < Py.abs p.2.2.1)) = false) :
    let f := (resolveEllipsoid ell).flattening
    let ps := vStart f (vRad deg pts)
    (vdistArr pts ell deg).isSome ∧
    ((∃ m, vdistArr pts ell deg = some (.error (.valueError m))) ↔
      ((∀ k < 50, vOver f ps k = false ∧ vMoving f ps k = true) ∨
       ∃ n < 50, (∀ k < n, vOver f ps k = false ∧ vMoving f ps k = true) ∧ vOver f ps n = true)) := by
  intro f ps
  have hdef : vdistArr pts ell deg = (vdistLoopArr f 0 ps).map fun r =>
      if r.1 = true ∧ 2 ≤ r.2.length then
        .error (.valueError "The truth value of an array with more than one element is ambiguous.")
      else .ok (r.2.map fun p => (vDist (resolveEllipsoid ell).semimajor_axis (resolveEllipsoid ell).semiminor_axis p.2,
        outAngle deg (vAzimuth p.1.U1 p.1.U2 p.1.lon1 p.1.lon2 p.2.lamb))) := by
    simp only [vdistArr]
    rw [if_neg]
    · rfl
    · intro h
      exact Bool.false_ne_true (hok.symm.trans h)
  have hl : ps.length = pts.length := by simp only [ps, vStart, vRad, List.length_map]
  obtain ⟨x1, x2, x3⟩ := vdistLoopArr_exits f ps
  by_cases hall : ∀ k < 50, vOver f ps k = false ∧ vMoving f ps k = true
  · rw [hdef, x3 hall]
    refine ⟨rfl, fun _ => Or.inl hall, fun _ => ⟨"The truth value of an array with more than one element is ambiguous.", ?_⟩⟩
    · simp only [Option.map_some, true_and]
      rw [if_pos (by simp only [List.length_map, vIterArr_length, hl]; exact hlen)]
  · have hex : ∃ n, n < 50 ∧ ¬ (vOver f ps n = false ∧ vMoving f ps n = true) := by
      by_cases h : ∃ n, n < 50 ∧ ¬ (vOver f ps n = false ∧ vMoving f ps n = true)
      · exact h
      · exact absurd (fun k hk => by
          by_cases h' : vOver f ps k = false ∧ vMoving f ps k = true
          · exact h'
          · exact absurd ⟨k, hk, h'⟩ h) hall
    classical
    let n := Nat.find hex
    have hn : n < 50 ∧ ¬ (vOver f ps n = false ∧ vMoving f ps n = true) := Nat.find_spec hex
    have hmin : ∀ k < n, vOver f ps k = false ∧ vMoving f ps k = true := by
      intro k hk
      have := Nat.find_min hex hk
      by_cases h' : vOver f ps k = false ∧ vMoving f ps k = true
      · exact h'
      · exact absurd ⟨by omega, h'⟩ this
    by_cases ho : vOver f ps n = true
    · rw [hdef, x1 n hn.1 hmin ho]
      refine ⟨rfl, fun _ => Or.inr ⟨n, hn.1, hmin, ho⟩, fun _ => ⟨"The truth value of an array with more than one element is ambiguous.", ?_⟩⟩
      · simp only [Option.map_some, true_and]
        rw [if_pos (by simp only [List.length_map, vIterArr_length, hl]; exact hlen)]
    · rw [Bool.not_eq_true] at ho
      have hm : vMoving f ps n = false := by
        cases h : vMoving f ps n
        · rfl
        · exact absurd ⟨ho, h⟩ hn.2
      rw [hdef, x2 n hn.1 hmin ho hm]
      refine ⟨rfl, ?_, ?_⟩
      · rintro ⟨m, h⟩
        simp only [Option.map_some, Bool.false_eq_true, false_and, if_false] at h
        cases h
      · rintro (h | ⟨m, hm1, hm2, hm3⟩)
        · exact absurd h hall
        · rcases Nat.lt_trichotomy m n with h | h | h
          · rw [(hmin m h).1] at hm3; cases hm3
          · rw [h, ho] at hm3; cases hm3
          · rw [(hm2 n h).2] at hm; cases hm

end generic

/-- witness: two pairs on the equator -/
example : (vdistArr [((0 : ℝ), 0, 0, 1), (0, 5, 0, 90)] none true).isSome :=
  (vdistArr_error_iff [((0 : ℝ), 0, 0, 1), (0, 5, 0, 90)] none true (by simp) (by
    simp [vRad, inAngle, Py.radians]; positivity)).1

end Pymap3d
