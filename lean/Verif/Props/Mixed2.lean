import Verif.Props.Mixed
import Mathlib.Tactic.SplitIfs
import Mathlib.Tactic.Push
import Mathlib.Data.List.Basic

set_option linter.unusedSectionVars false
/-!
**C81** The shape of the latitude returned by `ecef2geodetic` for three arrays of one shape, written out.
-/
namespace Pymap3d
open Py

/-- **C81.** For three arrays of shape `s`: longitude and altitude have shape `s`.  The latitude is a number if every axis has length one; otherwise its shape is `s`
without the axes of length one, so it is `s` exactly when there are none. -/
theorem ecef2geodetic_latitude_shape (s : List Nat) (ell : Option (Ellipsoid Kind)) (h : pyEll ell) (deg : Bool) :
    ∃ lat, ecef2geodeticKind (.arr s) (.arr s) (.arr s) ell deg = .ok (lat, .arr s, .arr s) ∧
      (lat = .np ↔ ∀ n ∈ s, n = 1) ∧ (∀ t, lat = .arr t ↔ t = s.filter (fun n => n ≠ 1) ∧ ∃ n ∈ s, n ≠ 1) ∧
      (lat = .arr s ↔ s ≠ [] ∧ ∀ n ∈ s, n ≠ 1) := by
  refine ⟨squeezeKind (.arr s), ecef2geodetic_shapes s ell h deg, ?_, ?_, ?_⟩
  · simp only [squeezeKind]
    split_ifs with c
    · simpa using c
    · simpa using c
  · intro t
    simp only [squeezeKind]
    split_ifs with c
    · simp only [reduceCtorEq, false_iff, not_and, not_exists]
      intro _ n hn hne
      have := List.filter_eq_nil_iff.mp c n hn
      simp [hne] at this
    · rw [List.filter_eq_nil_iff] at c
      push Not at c
      obtain ⟨n, hn, hne⟩ := c
      constructor
      · intro e
        injection e with e
        exact ⟨e.symm, n, hn, by simpa using hne⟩
      · intro e; rw [e.1]
  · simp only [squeezeKind]
    split_ifs with c
    · simp only [reduceCtorEq, false_iff, not_and]
      intro hs hall
      obtain ⟨n, hn⟩ := List.exists_mem_of_ne_nil s hs
      have := List.filter_eq_nil_iff.mp c n hn
      simp [hall n hn] at this
    · constructor
      · intro e
        injection e with e
        refine ⟨fun hs => c (by rw [hs]; rfl), fun n hn => ?_⟩
        rw [← e] at hn
        simpa using (List.mem_filter.mp hn).2
      · intro e
        congr 1
        rw [List.filter_eq_self]
        intro n hn
        simpa using e.2 n hn

/-- a 1×1 array gives a scalar latitude, a column of three a one-dimensional one -/
example : (ecef2geodeticKind (.arr [1, 1]) (.arr [1, 1]) (.arr [1, 1]) none true = .ok (.np, .arr [1, 1], .arr [1, 1])) ∧
    (ecef2geodeticKind (.arr [3, 1]) (.arr [3, 1]) (.arr [3, 1]) none true = .ok (.arr [3], .arr [3, 1], .arr [3, 1])) :=
  ⟨ecef2geodetic_shapes [1, 1] none (by intro e he; cases he) true, ecef2geodetic_shapes [3, 1] none (by intro e he; cases he) true⟩

end Pymap3d
