import Verif.Props.Mutation2

set_option linter.unusedSectionVars false

namespace Pymap3d
open Py

section generic
variable {F : Type} [Add F] [Sub F] [Mul F] [Div F] [Neg F] [Pow F Nat] [OfScientific F] [LT F] [LE F] [DecidableLT F]
  [DecidableLE F] [PyMath F]

theorem zip4_map4 {α β : Type} (f g i j : α → β) (a b c d : List α) :
    zip4 (a.map f) (b.map g) (c.map i) (d.map j) =
      (zip4 a b c d).map (fun p => (f p.1, g p.2.1, i p.2.2.1, j p.2.2.2)) := by
  simp only [zip4, List.zip_map]
  rfl

theorem zip_map_left_map {α β γ δ : Type} (f : α → β) (g : β × γ → δ) (l : List α) (r : List γ) :
    (List.zip (l.map f) r).map g = (List.zip l r).map (fun q => g (f q.1, q.2)) := by
  induction l generalizing r with
  | nil => rfl
  | cons x l ih => cases r with
    | nil => rfl
    | cons y r => simp only [List.map_cons, List.zip_cons_cons, ih]

/-- the value computed from adjusted radian latitudes is the value of the value-level model -/
theorem vreckonFrom_eq (pts : List (F × F × F × F)) (ell : Option (Ellipsoid F)) (deg : Bool)
    (h1 : (pts.any fun p => decide (p.2.2.1 < 0.0)) = false)
    (h2 : (pts.any fun p => decide (pi / 2.0 < abs (inAngle deg p.1))) = false) :
    vreckonFrom (resolveEllipsoid ell) deg
      (pts.map fun p => (polarAdjust (inAngle deg p.1), inAngle deg p.2.1, p.2.2.1, inAngle deg p.2.2.2)) =
      vreckonArr pts ell deg := by
  simp only [vreckonFrom, vreckonArr, h1, Bool.false_eq_true, if_false, List.any_map, Function.comp_def, h2, List.map_map,
    zip_map_left_map]

theorem zip4_any1 {α : Type} (p : α → Bool) (a b c d : List α)
    (hl : a.length = b.length ∧ b.length = c.length ∧ c.length = d.length) :
    ((zip4 a b c d).any fun x => p x.1) = a.any p := by
  have := zip4_any p (fun _ => false) a b c d hl
  have hf : ∀ l : List α, (l.any fun _ => false) = false := fun l => by rw [List.any_eq_false]; intros; exact Bool.false_ne_true
  simpa [hf] using this

theorem zip4_any3 {α : Type} (p : α → Bool) (a b c d : List α)
    (hl : a.length = b.length ∧ b.length = c.length ∧ c.length = d.length) :
    ((zip4 a b c d).any fun x => p x.2.2.1) = c.any p := by
  have := zip4_any (fun _ => false) p a b c d hl
  have hf : ∀ l : List α, (l.any fun _ => false) = false := fun l => by rw [List.any_eq_false]; intros; exact Bool.false_ne_true
  simpa [hf] using this

/-- **C56.** `vreckon` on arrays in degrees: the results are those of the value-level model, whatever objects are shared. -/
theorem vreckonHeap_deg (h : Heap F) (a b c d : Nat) (va vb vc vd : List F) (ha : h[a]? = some va) (hb : h[b]? = some vb)
    (hc : h[c]? = some vc) (hd : h[d]? = some vd) (hl : va.length = vb.length ∧ vb.length = vc.length ∧ vc.length = vd.length)
    (ell : Option (Ellipsoid F)) : (vreckonHeap a b c d ell true h).1 = vreckonArr (zip4 va vb vc vd) ell true := by
  have e1 := zip4_any3 (fun x : F => decide (x < 0.0)) va vb vc vd hl
  have e2 := zip4_any1 (fun x : F => decide (pi / 2.0 < abs (inAngle true x))) va vb vc vd hl
  by_cases k1 : (vc.any fun x => decide (x < 0.0)) = true
  · rw [k1] at e1
    simp only [vreckonHeap, vreckonArr, hc, Option.getD_some, k1, e1, if_true]
  · rw [Bool.not_eq_true] at k1
    rw [k1] at e1
    by_cases k2 : (va.any fun x => decide (pi / 2.0 < abs (radians x))) = true
    · have k2' : (va.any fun x => decide (pi / 2.0 < abs (inAngle true x))) = true := k2
      rw [k2'] at e2
      simp only [vreckonHeap, vreckonArr, ha, hc, Option.getD_some, k1, e1, e2, if_true, Bool.false_eq_true, if_false,
        List.any_map, Function.comp_def, k2]
    · rw [Bool.not_eq_true] at k2
      have k2' : (va.any fun x => decide (pi / 2.0 < abs (inAngle true x))) = false := k2
      rw [k2'] at e2
      rw [← vreckonFrom_eq _ _ _ e1 e2]
      simp only [vreckonHeap, ha, hb, hc, hd, Option.getD_some, k1, if_true, Bool.false_eq_true, if_false,
        List.any_map, Function.comp_def, k2]
      have := zip4_map4 (fun x : F => polarAdjust (radians x)) radians id radians va vb vc vd
      simp only [List.map_id, id] at this
      rw [List.map_map]
      simp only [Function.comp_def]
      rw [this]
      rfl

/-- **C56.** `vreckon` on arrays in radians, when the call is accepted and `lon1`, `rng`, `azim` are objects other than
`lat1`: the results are those of the value-level model. -/
theorem vreckonHeap_rad_value (h : Heap F) (a b c d : Nat) (va vb vc vd : List F) (ha : h[a]? = some va)
    (hb : h[b]? = some vb) (hc : h[c]? = some vc) (hd : h[d]? = some vd)
    (hl : va.length = vb.length ∧ vb.length = vc.length ∧ vc.length = vd.length)
    (hne : b ≠ a ∧ c ≠ a ∧ d ≠ a) (ell : Option (Ellipsoid F)) :
    (vreckonHeap a b c d ell false h).1 = vreckonArr (zip4 va vb vc vd) ell false := by
  have e1 := zip4_any3 (fun x : F => decide (x < 0.0)) va vb vc vd hl
  have e2 := zip4_any1 (fun x : F => decide (pi / 2.0 < abs (inAngle false x))) va vb vc vd hl
  by_cases k1 : (vc.any fun x => decide (x < 0.0)) = true
  · rw [k1] at e1
    simp only [vreckonHeap, vreckonArr, hc, Option.getD_some, k1, e1, if_true]
  · rw [Bool.not_eq_true] at k1
    rw [k1] at e1
    by_cases k2 : (va.any fun x => decide (pi / 2.0 < abs x)) = true
    · have k2' : (va.any fun x => decide (pi / 2.0 < abs (inAngle false x))) = true := k2
      rw [k2'] at e2
      simp only [vreckonHeap, vreckonArr, ha, hc, Option.getD_some, k1, e1, e2, if_true, Bool.false_eq_true, if_false,
        List.any_map, Function.comp_def, k2]
    · rw [Bool.not_eq_true] at k2
      have k2' : (va.any fun x => decide (pi / 2.0 < abs (inAngle false x))) = false := k2
      rw [k2'] at e2
      rw [← vreckonFrom_eq _ _ _ e1 e2]
      simp only [vreckonHeap, ha, hc, Option.getD_some, k1, Bool.false_eq_true, if_false, k2]
      rw [modify_get, modify_get, modify_get, modify_get, if_pos rfl, if_neg hne.1, if_neg hne.2.1, if_neg hne.2.2, ha, hb, hc,
        hd]
      simp only [Option.map_some, Option.getD_some]
      have := zip4_map4 (fun x : F => polarAdjust x) id id id va vb vc vd
      simp only [List.map_id, id] at this
      rw [this]
      rfl

end generic

/-- witness: two departure points in radians in four separate array objects -/
example : (vreckonHeap 0 1 2 3 none false [[(0.5 : ℝ), 0], [1, 2], [1000, 2000], [0.25, 3]]).1 =
    vreckonArr [(0.5, 1, 1000, 0.25), (0, 2, 2000, 3)] none false :=
  vreckonHeap_rad_value (F := ℝ) [[0.5, 0], [1, 2], [1000, 2000], [0.25, 3]] 0 1 2 3 [0.5, 0] [1, 2] [1000, 2000] [0.25, 3]
    rfl rfl rfl rfl (by simp) (by decide) none

end Pymap3d
