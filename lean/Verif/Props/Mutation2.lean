import Verif.Props.Mutation
import Verif.Props.Vdist
/-!
# C56: what exactly happens to the caller's arrays
-/
set_option linter.unusedSectionVars false
namespace Pymap3d
open Py

section generic
variable {F : Type} [Add F] [Sub F] [Mul F] [Div F] [Neg F] [Pow F Nat] [OfScientific F] [LT F] [LE F]
  [DecidableLT F] [DecidableLE F] [PyMath F]

theorem zeroTrim_idem (x : F) : zeroTrim (zeroTrim x) = zeroTrim x := by
  unfold zeroTrim
  split_ifs <;> rfl

theorem enu2aer_aerOf (e n u : F) (deg : Bool) : enu2aer e n u deg = aerOf (zeroTrim e) (zeroTrim n) (zeroTrim u) deg := rfl

theorem modify_get (h : Heap F) (l k : Nat) (f : List F → List F) :
    (h.modify l f)[k]? = if k = l then (h[k]?).map f else h[k]? := by
  rw [List.getElem?_modify]
  by_cases hk : k = l
  · subst hk; simp
  · simp [hk, Ne.symm hk]

/-- trimming three (possibly identical) arrays: each of them is trimmed, nothing else changes -/
theorem trim3_get (h : Heap F) (le ln lu k : Nat) :
    (((h.modify le (·.map zeroTrim)).modify ln (·.map zeroTrim)).modify lu (·.map zeroTrim))[k]? =
      if k = le ∨ k = ln ∨ k = lu then (h[k]?).map (·.map zeroTrim) else h[k]? := by
  have hid : ((fun l : List F => l.map zeroTrim) ∘ fun l : List F => l.map zeroTrim) = fun l : List F => l.map zeroTrim := by
    funext l; simp only [Function.comp, List.map_map]
    congr 1; funext x; exact zeroTrim_idem x
  rw [modify_get, modify_get, modify_get]
  by_cases h1 : k = lu <;> by_cases h2 : k = ln <;> by_cases h3 : k = le <;>
    simp only [h1, h2, h3, if_true, if_false, true_or, or_true, or_false, Option.map_map, hid] <;> simp_all

theorem zipWith3_map {α β : Type} (f : β → β → β → α) (t : β → β) (a b c : List β) :
    zipWith3 f (a.map t) (b.map t) (c.map t) = zipWith3 (fun x y z => f (t x) (t y) (t z)) a b c := by
  induction a generalizing b c with
  | nil => cases b <;> cases c <;> rfl
  | cons x a ih =>
    cases b with
    | nil => rfl
    | cons y b =>
      cases c with
      | nil => rfl
      | cons z c => simp only [List.map_cons, zipWith3, ih]

/-- **C56.** `enu2aer` on three arrays (possibly the same object): the result is elementwise that of the scalar call, and the caller's arrays
are left trimmed; no other array changes. -/
theorem enu2aerHeap_arrays (h : Heap F) (le ln lu : Nat) (ve vn vu : List F) (he : h[le]? = some ve) (hn : h[ln]? = some vn)
    (hu : h[lu]? = some vu) (hl1 : ve.length = vn.length) (hl2 : vn.length = vu.length) (deg : Bool) :
    let r := enu2aerHeap (.arr le) (.arr ln) (.arr lu) deg h
    let rs := zipWith3 (fun e n u => enu2aer e n u deg) ve vn vu
    r.1 = .ok (.array (rs.map (·.1)), .array (rs.map (·.2.1)), .array (rs.map (·.2.2))) ∧
    ∀ k, r.2[k]? = if k = le ∨ k = ln ∨ k = lu then (h[k]?).map (·.map zeroTrim) else h[k]? := by
  have g := trim3_get h le ln lu
  simp only [enu2aerHeap, trimInPlace]
  have ge := g le
  have gn := g ln
  have gu := g lu
  simp only [true_or, or_true, if_true, he, hn, hu, Option.map_some] at ge gn gu
  simp only [ge, gn, gu, List.length_map]
  rw [if_pos ⟨hl1, hl2⟩]
  refine ⟨?_, g⟩
  simp only [zipWith3_map]
  rfl

/-- **C56.** three arrays of different lengths: `ValueError`, but they have been trimmed all the same -/
theorem enu2aerHeap_mismatch (h : Heap F) (le ln lu : Nat) (ve vn vu : List F) (he : h[le]? = some ve) (hn : h[ln]? = some vn)
    (hu : h[lu]? = some vu) (hl : ¬(ve.length = vn.length ∧ vn.length = vu.length)) (deg : Bool) :
    let r := enu2aerHeap (.arr le) (.arr ln) (.arr lu) deg h
    (∃ m, r.1 = .error (.valueError m)) ∧
    ∀ k, r.2[k]? = if k = le ∨ k = ln ∨ k = lu then (h[k]?).map (·.map zeroTrim) else h[k]? := by
  have g := trim3_get h le ln lu
  simp only [enu2aerHeap, trimInPlace]
  have ge := g le
  have gn := g ln
  have gu := g lu
  simp only [true_or, or_true, if_true, he, hn, hu, Option.map_some] at ge gn gu
  simp only [ge, gn, gu, List.length_map]
  rw [if_neg hl]
  exact ⟨⟨_, rfl⟩, g⟩

/-- **C56.** scalars: nothing changes -/
theorem enu2aerHeap_scalars (h : Heap F) (e n u : F) (deg : Bool) :
    let v := enu2aer e n u deg
    enu2aerHeap (.scalar e) (.scalar n) (.scalar u) deg h = (.ok (.scalar v.1, .scalar v.2.1, .scalar v.2.2), h) := rfl

/-- **C56 (defect).** An array for the east component with a scalar for another: `TypeError`, after the array has been trimmed in place. -/
theorem enu2aerHeap_mixed (h : Heap F) (le : Nat) (ve : List F) (he : h[le]? = some ve) (hlen : ve.length ≠ 1) (n : F) (u : Arg F) (deg : Bool) :
    let r := enu2aerHeap (.arr le) (.scalar n) u deg h
    (∃ m, r.1 = .error (.typeError m)) ∧ ∀ k, r.2[k]? = if k = le then (h[k]?).map (·.map zeroTrim) else h[k]? := by
  have hf : toFloat (h.modify le (·.map zeroTrim)) (.arr le : Arg F) =
      .error (.typeError "only length-1 arrays can be converted to Python scalars") := by
    simp only [toFloat, modify_get, if_true, he, Option.map_some]
    match ve, hlen with
    | [], _ => rfl
    | [x], h => exact absurd rfl h
    | x :: y :: l, _ => rfl
  simp only [enu2aerHeap, trimInPlace]
  refine ⟨⟨"only length-1 arrays can be converted to Python scalars", ?_⟩, fun k => modify_get h le k _⟩
  simp only [enu2aerScalar, hf]; rfl

/-- **C56.** `ned2aer` trims the caller's `n` and `e` but not `d` (unless `d` is one of the other two). -/
theorem ned2aerHeap_arrays (h : Heap F) (ln le ld : Nat) (vn ve vd : List F) (hn : h[ln]? = some vn) (he : h[le]? = some ve)
    (hd : h[ld]? = some vd) (hl1 : ve.length = vn.length) (hl2 : vn.length = vd.length) (deg : Bool) :
    let r := ned2aerHeap (.arr ln) (.arr le) (.arr ld) deg h
    ∀ k, k < h.length → r.2[k]? = if k = le ∨ k = ln then (h[k]?).map (·.map zeroTrim) else h[k]? := by
  intro r k hk
  have hlt : ∀ l v, h[l]? = some v → l < h.length := fun l v hv => (List.getElem?_eq_some_iff.mp hv).1
  have e1 : (h ++ [vd.map (fun x => -x)])[le]? = some ve := by rw [List.getElem?_append_left (hlt le ve he)]; exact he
  have e2 : (h ++ [vd.map (fun x => -x)])[ln]? = some vn := by rw [List.getElem?_append_left (hlt ln vn hn)]; exact hn
  have e3 : (h ++ [vd.map (fun x => -x)])[h.length]? = some (vd.map (fun x => -x)) := by simp
  have := (enu2aerHeap_arrays (h ++ [vd.map (fun x => -x)]) le ln h.length ve vn _ e1 e2 e3 hl1 (by simpa using hl2) deg).2 k
  have hr : r = enu2aerHeap (.arr le) (.arr ln) (.arr h.length) deg (h ++ [vd.map (fun x => -x)]) := by
    simp only [r, ned2aerHeap, negArg, hd, Option.getD_some]
  rw [hr, this, List.getElem?_append_left hk]
  have hne : k ≠ h.length := Nat.ne_of_lt hk
  simp only [hne, or_false]

/-- **C56.** `sez2aer` trims the caller's `e` and `z` but not `s`. -/
theorem sez2aerHeap_arrays (h : Heap F) (ls le lz : Nat) (vs ve vz : List F) (hs : h[ls]? = some vs) (he : h[le]? = some ve)
    (hz : h[lz]? = some vz) (hl1 : ve.length = vs.length) (hl2 : vs.length = vz.length) (deg : Bool) :
    let r := sez2aerHeap (.arr ls) (.arr le) (.arr lz) deg h
    ∀ k, k < h.length → r.2[k]? = if k = le ∨ k = lz then (h[k]?).map (·.map zeroTrim) else h[k]? := by
  intro r k hk
  have hlt : ∀ l v, h[l]? = some v → l < h.length := fun l v hv => (List.getElem?_eq_some_iff.mp hv).1
  have e1 : (h ++ [vs.map (fun x => -x)])[le]? = some ve := by rw [List.getElem?_append_left (hlt le ve he)]; exact he
  have e2 : (h ++ [vs.map (fun x => -x)])[lz]? = some vz := by rw [List.getElem?_append_left (hlt lz vz hz)]; exact hz
  have e3 : (h ++ [vs.map (fun x => -x)])[h.length]? = some (vs.map (fun x => -x)) := by simp
  have := (enu2aerHeap_arrays (h ++ [vs.map (fun x => -x)]) le h.length lz ve _ vz e1 e3 e2 (by simpa using hl1) (by simpa using hl2) deg).2 k
  have hr : r = enu2aerHeap (.arr le) (.arr h.length) (.arr lz) deg (h ++ [vs.map (fun x => -x)]) := by
    simp only [r, sez2aerHeap, negArg, hs, Option.getD_some]
  rw [hr, this, List.getElem?_append_left hk]
  have hne : k ≠ h.length := Nat.ne_of_lt hk
  simp only [hne, false_or]

/-- **C56.** `nwu2aer` trims the caller's `n` and `u` but not `w`. -/
theorem nwu2aerHeap_arrays (h : Heap F) (ln lw lu : Nat) (vn vw vu : List F) (hn : h[ln]? = some vn) (hw : h[lw]? = some vw)
    (hu : h[lu]? = some vu) (hl1 : vw.length = vn.length) (hl2 : vn.length = vu.length) (deg : Bool) :
    let r := nwu2aerHeap (.arr ln) (.arr lw) (.arr lu) deg h
    ∀ k, k < h.length → r.2[k]? = if k = ln ∨ k = lu then (h[k]?).map (·.map zeroTrim) else h[k]? := by
  intro r k hk
  have hlt : ∀ l v, h[l]? = some v → l < h.length := fun l v hv => (List.getElem?_eq_some_iff.mp hv).1
  have e1 : (h ++ [vw.map (fun x => -x)])[ln]? = some vn := by rw [List.getElem?_append_left (hlt ln vn hn)]; exact hn
  have e2 : (h ++ [vw.map (fun x => -x)])[lu]? = some vu := by rw [List.getElem?_append_left (hlt lu vu hu)]; exact hu
  have e3 : (h ++ [vw.map (fun x => -x)])[h.length]? = some (vw.map (fun x => -x)) := by simp
  have := (enu2aerHeap_arrays (h ++ [vw.map (fun x => -x)]) h.length ln lu _ vn vu e3 e1 e2 (by simpa using hl1) hl2 deg).2 k
  have hr : r = enu2aerHeap (.arr h.length) (.arr ln) (.arr lu) deg (h ++ [vw.map (fun x => -x)]) := by
    simp only [r, nwu2aerHeap, negArg, hw, Option.getD_some]
  rw [hr, this, List.getElem?_append_left hk]
  have hne : k ≠ h.length := Nat.ne_of_lt hk
  simp only [hne, false_or]

/-! ### vdist, vreckon -/

/-- **C56.** With degrees neither function touches the caller's arrays, whatever happens. -/
theorem vincenty_deg_pure (h : Heap F) (a b c d : Nat) (ell : Option (Ellipsoid F)) :
    (vdistHeap a b c d ell true h).2 = h ∧ (vreckonHeap a b c d ell true h).2 = h := by
  constructor
  · simp only [vdistHeap, if_true]; split_ifs <;> rfl
  · simp only [vreckonHeap, if_true]; split_ifs <;> rfl

/-- **C56.** With radians a rejected call leaves everything as it was. -/
theorem vdistHeap_rejected (h : Heap F) (a b c d : Nat) (ell : Option (Ellipsoid F)) (v1 v2 : List F) (h1 : h[a]? = some v1)
    (h2 : h[c]? = some v2) (hbad : ∃ x, (x ∈ v1 ∨ x ∈ v2) ∧ pi / 2.0 < abs x) :
    (∃ m, (vdistHeap a b c d ell false h).1 = some (.error (.valueError m))) ∧ (vdistHeap a b c d ell false h).2 = h := by
  have : ((v1.any fun x => decide (pi / 2.0 < abs x)) || (v2.any fun x => decide (pi / 2.0 < abs x))) = true := by
    obtain ⟨x, hx, hlt⟩ := hbad
    rw [Bool.or_eq_true, List.any_eq_true, List.any_eq_true]
    rcases hx with hx | hx
    · exact Or.inl ⟨x, hx, by simpa using hlt⟩
    · exact Or.inr ⟨x, hx, by simpa using hlt⟩
  simp only [vdistHeap, h1, h2, Option.getD_some, this, if_true, Bool.false_eq_true, if_false]
  exact ⟨⟨_, rfl⟩, trivial⟩

theorem zip4_map {α β : Type} (f g : α → β) (a b c d : List α) :
    zip4 (a.map f) (b.map g) (c.map f) (d.map g) = (zip4 a b c d).map (fun p => (f p.1, g p.2.1, f p.2.2.1, g p.2.2.2)) := by
  simp only [zip4, List.zip_map]
  rfl

theorem zip4_any {α : Type} (p q : α → Bool) (a b c d : List α) (hl : a.length = b.length ∧ b.length = c.length ∧ c.length = d.length) :
    ((zip4 a b c d).any fun x => p x.1 || q x.2.2.1) = (a.any p || c.any q) := by
  obtain ⟨h1, h2, h3⟩ := hl
  induction a generalizing b c d with
  | nil =>
    have : c = [] := by rw [← List.length_eq_zero_iff]; simp at h1; omega
    subst this; simp [zip4]
  | cons x a ih =>
    match b, c, d, h1, h2, h3 with
    | y :: b, z :: c, w :: d, h1, h2, h3 =>
      have := ih b c d (by simpa using h1) (by simpa using h2) (by simpa using h3)
      simp only [zip4, List.zip_cons_cons, List.any_cons] at this ⊢
      rw [this]
      cases p x <;> cases q z <;> cases a.any p <;> cases c.any q <;> rfl

/-- **C56.** With degrees the results are those of the value-level model, whatever objects are shared. -/
theorem vdistHeap_deg (h : Heap F) (a b c d : Nat) (va vb vc vd : List F) (ha : h[a]? = some va) (hb : h[b]? = some vb)
    (hc : h[c]? = some vc) (hd : h[d]? = some vd) (hl : va.length = vb.length ∧ vb.length = vc.length ∧ vc.length = vd.length)
    (ell : Option (Ellipsoid F)) : (vdistHeap a b c d ell true h).1 = vdistArr (zip4 va vb vc vd) ell true := by
  have hany := zip4_any (fun x : F => decide (pi / 2.0 < abs (inAngle true x))) (fun x : F => decide (pi / 2.0 < abs (inAngle true x))) va vb vc vd hl
  simp only [vdistHeap, vdistArr, if_true, ha, hb, hc, hd, Option.getD_some, List.any_map, Function.comp_def] at hany ⊢
  simp only [inAngle, if_true] at hany ⊢
  rw [hany]
  split_ifs
  · rfl
  · simp only [vdistFrom]
    rw [List.map_map, List.map_map, zip4_map, List.map_map, List.map_map]
    rfl

/-- **C56.** With radians, when the latitudes are accepted: `lat1` and `lat2` are left with their polar entries moved, nothing else changes; and
if the longitudes are different objects, the results are those of the value-level model. -/
theorem vdistHeap_rad (h : Heap F) (a b c d : Nat) (va vb vc vd : List F) (ha : h[a]? = some va) (hb : h[b]? = some vb)
    (hc : h[c]? = some vc) (hd : h[d]? = some vd) (hl : va.length = vb.length ∧ vb.length = vc.length ∧ vc.length = vd.length)
    (hidem : ∀ x : F, polarAdjust (polarAdjust x) = polarAdjust x)
    (hok : ∀ x, (x ∈ va ∨ x ∈ vc) → ¬ pi / 2.0 < abs x) (ell : Option (Ellipsoid F)) :
    (∀ k, (vdistHeap a b c d ell false h).2[k]? = if k = a ∨ k = c then (h[k]?).map (·.map polarAdjust) else h[k]?) ∧
    (b ≠ a → b ≠ c → d ≠ a → d ≠ c → (vdistHeap a b c d ell false h).1 = vdistArr (zip4 va vb vc vd) ell false) := by
  have hany := zip4_any (fun x : F => decide (pi / 2.0 < abs x)) (fun x : F => decide (pi / 2.0 < abs x)) va vb vc vd hl
  have hno : ((va.any fun x => decide (pi / 2.0 < abs x)) || (vc.any fun x => decide (pi / 2.0 < abs x))) = false := by
    rw [Bool.or_eq_false_iff, List.any_eq_false, List.any_eq_false]
    exact ⟨fun x hx => by simpa using hok x (Or.inl hx), fun x hx => by simpa using hok x (Or.inr hx)⟩
  have hid : ((fun l : List F => l.map polarAdjust) ∘ fun l : List F => l.map polarAdjust) = fun l : List F => l.map polarAdjust := by
    funext l; simp only [Function.comp, List.map_map]
    congr 1; funext x; exact hidem x
  have g : ∀ k, ((h.modify a (·.map polarAdjust)).modify c (·.map polarAdjust))[k]? =
      if k = a ∨ k = c then (h[k]?).map (·.map polarAdjust) else h[k]? := by
    intro k
    rw [modify_get, modify_get]
    by_cases h1 : k = c <;> by_cases h2 : k = a <;>
      simp only [h1, h2, if_true, if_false, true_or, or_true, or_false, Option.map_map, hid] <;> simp_all
  simp only [vdistHeap, Bool.false_eq_true, if_false, ha, hc, Option.getD_some, hno]
  refine ⟨g, fun h1 h2 h3 h4 => ?_⟩
  rw [g a, g b, g c, g d, if_pos (Or.inl rfl), if_neg (by simp [h1, h2]), if_pos (Or.inr rfl), if_neg (by simp [h3, h4]), ha, hb, hc, hd]
  simp only [Option.map_some, Option.getD_some, vdistFrom, vdistArr, inAngle, Bool.false_eq_true, if_false, List.map_id']
  rw [hno] at hany
  rw [hany]
  simp only [Bool.false_eq_true, if_false]
  have := zip4_map polarAdjust id va vb vc vd
  simp only [List.map_id] at this
  rw [this, List.map_map]
  rfl

/-- **C56.** `vreckon` with radians: `lat1` is left with its polar entries moved, nothing else changes. -/
theorem vreckonHeap_rad (h : Heap F) (a b c d : Nat) (va vc : List F) (ha : h[a]? = some va) (hc : h[c]? = some vc)
    (hok : ∀ x ∈ va, ¬ pi / 2.0 < abs x) (hrng : ∀ x ∈ vc, ¬ x < 0.0) (ell : Option (Ellipsoid F)) (k : Nat) :
    (vreckonHeap a b c d ell false h).2[k]? = if k = a then (h[k]?).map (·.map polarAdjust) else h[k]? := by
  have h1 : (vc.any fun x => decide (x < 0.0)) = false := by
    rw [List.any_eq_false]; exact fun x hx => by simpa using hrng x hx
  have h2 : (va.any fun x => decide (pi / 2.0 < abs x)) = false := by
    rw [List.any_eq_false]; exact fun x hx => by simpa using hok x hx
  simp only [vreckonHeap, ha, hc, Option.getD_some, h1, h2, Bool.false_eq_true, if_false]
  exact modify_get h a k _

end generic

/-! ### over the reals -/

theorem polarAdjust_idem (φ : ℝ) : polarAdjust (polarAdjust φ) = polarAdjust φ := by
  have hpi := Real.pi_gt_three
  rw [polarAdjust_real φ]
  split_ifs with h1
  · rw [sign_real]
    have hne : φ ≠ 0 := by
      rintro rfl
      rw [abs_zero, sub_zero, abs_of_pos (by linarith)] at h1
      norm_num at h1; linarith
    rw [polarAdjust_real]
    have hc : ∀ s : ℝ, (s = 1 ∨ s = -1) → ¬ |Real.pi / 2 - (|s * (Real.pi / 2 - 1e-10)|)| < 1e-10 := by
      intro s hs
      have : |s * (Real.pi / 2 - 1e-10)| = Real.pi / 2 - 1e-10 := by
        rw [abs_mul, abs_of_pos (a := Real.pi / 2 - 1e-10) (by norm_num; linarith)]
        rcases hs with rfl | rfl <;> norm_num
      rw [this, sub_sub_cancel, abs_of_pos (by norm_num)]
      exact lt_irrefl _
    rw [if_neg]
    apply hc
    rcases lt_or_gt_of_ne hne with h | h
    · right; rw [if_pos h]
    · left; rw [if_neg (not_lt.mpr h.le), if_pos h]
  · rw [polarAdjust_real, if_neg h1]

/-- an array entry survives `enu2aer` unchanged exactly if it is zero or at least a millimetre -/
theorem zeroTrim_eq_self_iff (x : ℝ) : zeroTrim x = x ↔ x = 0 ∨ 1e-3 ≤ |x| := by
  simp only [zeroTrim, py_abs, lit_0]
  split_ifs with h
  · constructor
    · intro h0; exact Or.inl h0.symm
    · rintro (h0 | h0)
      · exact h0.symm
      · exact absurd h (not_lt.mpr h0)
  · exact ⟨fun _ => Or.inr (not_lt.mp h), fun _ => rfl⟩

/-- a latitude survives `vdist(..., deg=False)` unchanged exactly if it is not within `1e-10` of a pole -/
theorem polarAdjust_eq_self_iff (φ : ℝ) (h : |φ| ≤ Real.pi / 2) : polarAdjust φ = φ ↔ |φ| ≤ Real.pi / 2 - 1e-10 := by
  obtain ⟨h1, -, h3⟩ := polarAdjust_mem h
  exact ⟨fun he => by rwa [he] at h1, h3⟩

/-- **C56 (defect witness).** `enu2aer` on arrays with half a millimetre of east offset overwrites the caller's east array. -/
theorem enu2aer_modifies_caller (n u : ℝ) :
    let h : Heap ℝ := [[1/2000], [n], [u]]
    (enu2aerHeap (.arr 0) (.arr 1) (.arr 2) true h).2[0]? = some [0] := by
  intro h
  have := (enu2aerHeap_arrays h 0 1 2 [1/2000] [n] [u] rfl rfl rfl rfl rfl true).2 0
  rw [this]
  have hz : zeroTrim (1/2000 : ℝ) = 0 := by
    simp only [zeroTrim, py_abs, lit_0]
    rw [if_pos (by norm_num)]
  show some [zeroTrim (1/2000 : ℝ)] = some [0]
  rw [hz]

/-- **C56 (defect witness).** `vdist` in radians from the pole overwrites the caller's latitude array. -/
theorem vdist_modifies_caller (lon1 lat2 lon2 : ℝ) (h2 : |lat2| ≤ Real.pi / 2) :
    let h : Heap ℝ := [[Real.pi / 2], [lon1], [lat2], [lon2]]
    (vdistHeap 0 1 2 3 none false h).2[0]? = some [Real.pi / 2 - 1e-10] := by
  intro h
  have hpi := Real.pi_gt_three
  have := (vdistHeap_rad h 0 1 2 3 [Real.pi / 2] [lon1] [lat2] [lon2] rfl rfl rfl rfl ⟨rfl, rfl, rfl⟩ polarAdjust_idem
    (by
      intro x hx
      simp only [List.mem_singleton] at hx
      simp only [py_pi, py_abs, lit_2, not_lt]
      rcases hx with rfl | rfl
      · rw [abs_of_pos (by linarith)]
      · exact h2) none).1 0
  rw [this]
  have hz : polarAdjust (Real.pi / 2 : ℝ) = Real.pi / 2 - 1e-10 := by
    rw [polarAdjust_real, abs_of_pos (by linarith : (0:ℝ) < Real.pi / 2), sub_self, abs_zero, if_pos (by norm_num), sign_real,
      if_neg (by linarith), if_pos (by linarith), one_mul]
  simp [h, hz]

end Pymap3d
