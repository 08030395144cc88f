import Verif.Model.HeapSkel
import Mathlib.Tactic.SplitIfs
import Mathlib.Tactic.Push
/-!
# C56: which arrays of the caller a call can modify

`mayModify` is a conservative analysis of the statements; `exec_frame` is its soundness: whatever values are computed, whatever branches
are taken, however often loops run and wherever an exception interrupts the call.
-/
set_option linter.unusedSectionVars false
namespace Pymap3d
open Stmt

/-- `(x, p)`: variable `x` may refer to the object passed as parameter `p`; and the parameters whose objects may have been modified -/
structure Alias where
  pairs : List (String × String)
  mods : List String
deriving DecidableEq

/-- the parameters a variable may refer to -/
def Alias.of (A : Alias) (x : String) : List String := (A.pairs.filter (fun q => decide (q.1 = x))).map (·.2)

/-- rebinding a variable -/
def Alias.rebind (A : Alias) (x : String) (ps : List String) : Alias :=
  { A with pairs := A.pairs.filter (fun q => decide (q.1 ≠ x)) ++ ps.map (fun p => (x, p)) }

/-- union -/
def Alias.join (A B : Alias) : Alias :=
  ⟨A.pairs ++ B.pairs.filter (fun q => decide (q ∉ A.pairs)), A.mods ++ B.mods.filter (fun q => decide (q ∉ A.mods))⟩

/-- inclusion -/
def Alias.le (A B : Alias) : Bool := A.pairs.all (fun q => decide (q ∈ B.pairs)) && A.mods.all (fun q => decide (q ∈ B.mods))

/-- the analysis (`none`: a loop did not stabilise): the state after normal completion, and one covering all intermediate states -/
def analyse : Stmt → Alias → Option (Alias × Alias)
  | .skip, A => some (A, A)
  | .fresh x, A => some (A.rebind x [], A)
  | .share x y, A => some (A.rebind x (A.of y), A)
  | .inplace x, A => let B := { A with mods := A.mods ++ A.of x }; some (B, B)
  | .seq a b, A => do
    let r ← analyse a A
    let s ← analyse b r.1
    return (s.1, r.2.join s.2)
  | .choice a b, A => do
    let r ← analyse a A
    let s ← analyse b (A.join r.2)
    return (r.1.join s.1, (A.join r.2).join s.2)
  | .loop a, A => do
    let r ← analyse a A
    let A1 := A.join (r.1.join r.2)
    let s ← analyse a A1
    if s.1.le A1 && s.2.le A1 then return (A1, A1) else none

/-- the parameters a function may modify -/
def mayModify (s : Stmt) (params : List String) : Option (List String) :=
  (analyse s ⟨params.map (fun p => (p, p)), []⟩).map (fun r => (r.1.join r.2).mods.eraseDups)

/-- what the analysis state means, relative to the state in which the function was entered -/
structure Alias.Holds {C : Type} (A : Alias) (σ₀ σ : ObjState C) : Prop where
  len : σ₀.heap.length ≤ σ.heap.length
  refs : ∀ x l, σ.env x = some l → l < σ₀.heap.length → ∃ p, (x, p) ∈ A.pairs ∧ σ₀.env p = some l
  frame : ∀ l, l < σ₀.heap.length → σ.heap[l]? ≠ σ₀.heap[l]? → ∃ p ∈ A.mods, σ₀.env p = some l

theorem Alias.Holds.mono {C : Type} {A B : Alias} {σ₀ σ : ObjState C} (h : A.Holds σ₀ σ) (hp : ∀ q ∈ A.pairs, q ∈ B.pairs)
    (hm : ∀ q ∈ A.mods, q ∈ B.mods) : B.Holds σ₀ σ := by
  refine ⟨h.len, fun x l hx hl => ?_, fun l hl hd => ?_⟩
  · obtain ⟨p, h1, h2⟩ := h.refs x l hx hl; exact ⟨p, hp _ h1, h2⟩
  · obtain ⟨p, h1, h2⟩ := h.frame l hl hd; exact ⟨p, hm _ h1, h2⟩

theorem Alias.Holds.joinL {C : Type} {A : Alias} {σ₀ σ : ObjState C} (h : A.Holds σ₀ σ) (B : Alias) : (A.join B).Holds σ₀ σ :=
  h.mono (fun _ hq => List.mem_append_left _ hq) (fun _ hq => List.mem_append_left _ hq)

theorem Alias.Holds.joinR {C : Type} {B : Alias} {σ₀ σ : ObjState C} (h : B.Holds σ₀ σ) (A : Alias) : (A.join B).Holds σ₀ σ := by
  refine h.mono (fun q hq => ?_) (fun q hq => ?_)
  · by_cases hA : q ∈ A.pairs
    · exact List.mem_append_left _ hA
    · exact List.mem_append_right _ (List.mem_filter.mpr ⟨hq, by simpa using hA⟩)
  · by_cases hA : q ∈ A.mods
    · exact List.mem_append_left _ hA
    · exact List.mem_append_right _ (List.mem_filter.mpr ⟨hq, by simpa using hA⟩)

theorem Alias.Holds.ofLe {C : Type} {A B : Alias} {σ₀ σ : ObjState C} (h : A.Holds σ₀ σ) (hle : A.le B = true) : B.Holds σ₀ σ := by
  rw [Alias.le, Bool.and_eq_true, List.all_eq_true, List.all_eq_true] at hle
  exact h.mono (fun q hq => by simpa using hle.1 q hq) (fun q hq => by simpa using hle.2 q hq)

theorem mem_of {A : Alias} {x p : String} : p ∈ A.of x ↔ (x, p) ∈ A.pairs := by
  simp only [Alias.of, List.mem_map, List.mem_filter, decide_eq_true_eq]
  constructor
  · rintro ⟨q, ⟨h1, h2⟩, h3⟩; rw [← h2, ← h3]; exact h1
  · intro h; exact ⟨(x, p), ⟨h, rfl⟩, rfl⟩

theorem Alias.Holds.bind {C : Type} {A : Alias} {σ₀ σ : ObjState C} (h : A.Holds σ₀ σ) (x : String) (v : Option Nat) (ps : List String)
    (hv : ∀ l, v = some l → l < σ₀.heap.length → ∃ p ∈ ps, σ₀.env p = some l) : (A.rebind x ps).Holds σ₀ (σ.bind x v) := by
  refine ⟨h.len, fun y l hy hl => ?_, fun l hl hd => h.frame l hl hd⟩
  simp only [ObjState.bind] at hy
  split_ifs at hy with hyx
  · obtain ⟨p, hp, he⟩ := hv l hy hl
    exact ⟨p, List.mem_append_right _ (List.mem_map.mpr ⟨p, hp, by rw [hyx]⟩), he⟩
  · obtain ⟨p, hp, he⟩ := h.refs y l hy hl
    exact ⟨p, List.mem_append_left _ (List.mem_filter.mpr ⟨hp, by simpa using hyx⟩), he⟩

theorem Alias.Holds.alloc {C : Type} {A : Alias} {σ₀ σ : ObjState C} (h : A.Holds σ₀ σ) (c : C) :
    A.Holds σ₀ { σ with heap := σ.heap ++ [c] } := by
  refine ⟨by have := h.len; simp only [List.length_append]; omega, h.refs, fun l hl hd => h.frame l hl ?_⟩
  have := h.len
  rwa [List.getElem?_append_left (by omega)] at hd

theorem analyse_start {C : Type} (σ₀ σ : ObjState C) (s : Stmt) : ∀ A r, analyse s A = some r → A.Holds σ₀ σ → r.2.Holds σ₀ σ := by
  induction s with
  | skip => intro A r h; cases h; exact id
  | fresh x => intro A r h; cases h; exact id
  | share x y => intro A r h; cases h; exact id
  | inplace x =>
    intro A r h hA; cases h
    exact hA.mono (fun _ hq => hq) (fun _ hq => List.mem_append_left _ hq)
  | seq a b iha ihb =>
    intro A r h hA
    simp only [analyse] at h
    cases ha : analyse a A with
    | none => rw [ha] at h; cases h
    | some ra =>
      cases hb : analyse b ra.1 with
      | none => simp only [ha, bind, Option.bind, hb] at h; cases h
      | some rb =>
        simp only [ha, bind, Option.bind, hb] at h; cases h
        exact (iha A ra ha hA).joinL _
  | choice a b iha ihb =>
    intro A r h hA
    simp only [analyse] at h
    cases ha : analyse a A with
    | none => rw [ha] at h; cases h
    | some ra =>
      cases hb : analyse b (A.join ra.2) with
      | none => simp only [ha, bind, Option.bind, hb] at h; cases h
      | some rb =>
        simp only [ha, bind, Option.bind, hb] at h; cases h
        exact (hA.joinL _).joinL _
  | loop a iha =>
    intro A r h hA
    simp only [analyse] at h
    cases ha : analyse a A with
    | none => rw [ha] at h; cases h
    | some ra =>
      cases hb : analyse a (A.join (ra.1.join ra.2)) with
      | none => simp only [ha, bind, Option.bind, hb] at h; cases h
      | some rb =>
        simp only [ha, bind, Option.bind, hb] at h
        split_ifs at h with hle
        cases h
        exact hA.joinL _

/-- soundness of the analysis: the first component describes every completed execution, the second every interrupted one -/
theorem analyse_sound {C : Type} (σ₀ : ObjState C) (s : Stmt) : ∀ (σ σ' : ObjState C) (d : Bool), Exec s σ σ' d →
    ∀ A r, analyse s A = some r → A.Holds σ₀ σ → if d = true then r.1.Holds σ₀ σ' else r.2.Holds σ₀ σ' := by
  induction s with
  | skip => intro σ σ' d hx A r h hA; cases h; cases hx <;> exact hA
  | fresh x =>
    intro σ σ' d hx A r h hA; cases h
    cases hx with
    | raise => exact hA
    | freshScalar => exact hA.bind x none [] (fun l hl => by cases hl)
    | freshArray _ _ c =>
      refine (hA.alloc c).bind x _ [] (fun l hl hlt => ?_)
      cases hl
      exact absurd hlt (Nat.not_lt.mpr hA.len)
  | share x y =>
    intro σ σ' d hx A r h hA; cases h
    cases hx with
    | raise => exact hA
    | share =>
      refine hA.bind x _ _ (fun l hl hlt => ?_)
      obtain ⟨p, h1, h2⟩ := hA.refs y l hl hlt
      exact ⟨p, mem_of.mpr h1, h2⟩
    | shareCopy _ _ _ c =>
      refine (hA.alloc c).bind x _ _ (fun l hl hlt => ?_)
      cases hl
      exact absurd hlt (Nat.not_lt.mpr hA.len)
  | inplace x =>
    intro σ σ' d hx A r h hA
    have hB : Alias.Holds { A with mods := A.mods ++ A.of x } σ₀ σ :=
      hA.mono (fun _ hq => hq) (fun _ hq => List.mem_append_left _ hq)
    cases h
    cases hx with
    | raise => exact hB
    | inplaceNone => exact hB
    | inplace _ _ l c hl =>
      refine ⟨by simpa using hA.len, hB.refs, fun k hk hd => ?_⟩
      by_cases hkl : k = l
      · subst hkl
        obtain ⟨p, h1, h2⟩ := hA.refs x k hl hk
        exact ⟨p, List.mem_append_right _ (mem_of.mpr h1), h2⟩
      · simp only [ne_eq] at hd
        rw [List.getElem?_set_ne (fun h => hkl h.symm)] at hd
        exact hB.frame k hk hd
  | seq a b iha ihb =>
    intro σ σ' d hx A r h hA
    have h0 := analyse_start σ₀ σ _ A r h hA
    simp only [analyse] at h
    cases ha : analyse a A with
    | none => rw [ha] at h; cases h
    | some ra =>
      cases hb : analyse b ra.1 with
      | none => simp only [ha, bind, Option.bind, hb] at h; cases h
      | some rb =>
        simp only [ha, bind, Option.bind, hb] at h; cases h
        cases hx with
        | raise => exact h0
        | seq _ _ _ τ _ _ h1 h2 =>
          have := ihb τ σ' d h2 ra.1 rb hb (iha σ τ true h1 A ra ha hA)
          split_ifs at this ⊢
          · exact this
          · exact this.joinR _
        | seqRaise _ _ _ _ h1 => exact (iha σ σ' false h1 A ra ha hA).joinL _
  | choice a b iha ihb =>
    intro σ σ' d hx A r h hA
    have h0 := analyse_start σ₀ σ _ A r h hA
    simp only [analyse] at h
    cases ha : analyse a A with
    | none => rw [ha] at h; cases h
    | some ra =>
      cases hb : analyse b (A.join ra.2) with
      | none => simp only [ha, bind, Option.bind, hb] at h; cases h
      | some rb =>
        simp only [ha, bind, Option.bind, hb] at h; cases h
        cases hx with
        | raise => exact h0
        | choiceL _ _ _ _ _ h1 =>
          have := iha σ σ' d h1 A ra ha hA
          split_ifs at this ⊢
          · exact this.joinL _
          · exact (this.joinR _).joinL _
        | choiceR _ _ _ _ _ h1 =>
          have := ihb σ σ' d h1 _ rb hb (hA.joinL _)
          split_ifs at this ⊢
          · exact this.joinR _
          · exact this.joinR _
        | choiceHandler _ _ _ τ _ _ h1 h2 =>
          have h3 : ra.2.Holds σ₀ τ := iha σ τ false h1 A ra ha hA
          have := ihb τ σ' d h2 _ rb hb (h3.joinR _)
          split_ifs at this ⊢
          · exact this.joinR _
          · exact this.joinR _
  | loop a iha =>
    intro σ σ' d hx A r h hA
    simp only [analyse] at h
    cases ha : analyse a A with
    | none => rw [ha] at h; cases h
    | some ra =>
      cases hb : analyse a (A.join (ra.1.join ra.2)) with
      | none => simp only [ha, bind, Option.bind, hb] at h; cases h
      | some rb =>
        simp only [ha, bind, Option.bind, hb] at h
        split_ifs at h with hle
        rw [Bool.and_eq_true] at hle
        cases h
        have key : ∀ (t : Stmt) (σ σ' : ObjState C) (d : Bool), Exec t σ σ' d → t = .loop a →
            (A.join (ra.1.join ra.2)).Holds σ₀ σ → (A.join (ra.1.join ra.2)).Holds σ₀ σ' := by
          intro t σ σ' d hx
          induction hx with
          | raise => intro _ h; exact h
          | loopEnd => intro _ h; exact h
          | loopStep a' σ τ υ d h1 h2 _ ih2 =>
            intro he hσ
            cases he
            exact ih2 rfl ((iha σ τ true h1 _ rb hb hσ).ofLe hle.1)
          | loopRaise a' σ τ h1 _ =>
            intro he hσ
            cases he
            exact (iha σ τ false h1 _ rb hb hσ).ofLe hle.2
          | _ => intro he; cases he
        have := key _ σ σ' d hx rfl (hA.joinL _)
        split_ifs <;> exact this

/-- **C56 (soundness).** If the analysis finds that only the parameters `ms` can be modified, then in every execution, completed or
interrupted by an exception, every array the caller had before the call is unchanged unless it was passed as one of `ms`. -/
theorem exec_frame {C : Type} (s : Stmt) (params ms : List String) (h : mayModify s params = some ms)
    (σ σ' : ObjState C) (d : Bool) (hx : Exec s σ σ' d)
    (hentry : ∀ x l, σ.env x = some l → x ∈ params) (l : Nat) (hl : l < σ.heap.length)
    (hn : ∀ p ∈ ms, σ.env p ≠ some l) : σ'.heap[l]? = σ.heap[l]? := by
  simp only [mayModify, Option.map_eq_some_iff] at h
  obtain ⟨r, hr, rfl⟩ := h
  have h0 : Alias.Holds ⟨params.map (fun p => (p, p)), []⟩ σ σ := by
    refine ⟨Nat.le_refl _, fun x k hk _ => ?_, fun k _ hd => absurd rfl hd⟩
    exact ⟨x, List.mem_map.mpr ⟨x, hentry x k hk, rfl⟩, hk⟩
  have h1 := analyse_sound σ s σ σ' d hx _ r hr h0
  have h2 : (r.1.join r.2).Holds σ σ' := by
    split_ifs at h1
    · exact h1.joinL _
    · exact h1.joinR _
  refine Classical.byContradiction fun hne => ?_
  obtain ⟨p, hp, he⟩ := h2.frame l hl hne
  exact hn p (by simpa using hp) he

/-- **C56.** The analysis of every function with in-place assignments: which of its array parameters it may modify. -/
theorem mutation_table :
    mayModify (skelEnu2aer "e" "n" "u") ["e", "n", "u"] = some ["e", "n", "u"] ∧
    mayModify skelNed2aer ["n", "e", "d"] = some ["e", "n"] ∧
    mayModify skelNwu2aer ["n", "w", "u"] = some ["n", "u"] ∧
    mayModify skelSez2aer ["s", "e", "z"] = some ["e", "z"] ∧
    mayModify skelDca2aer ["dr", "cr", "above", "heading"] = some ["above"] ∧
    mayModify skelEcef2aer ["x", "y", "z", "lat0", "lon0", "h0"] = some [] ∧
    mayModify skelGeodetic2aer ["lat", "lon", "h", "lat0", "lon0", "h0"] = some [] ∧
    mayModify (skelEcef2geodetic "x" "y" "z") ["x", "y", "z"] = some [] ∧
    mayModify (skelGeodetic2isometric "geodetic_lat") ["geodetic_lat"] = some [] ∧
    mayModify skelLookAtSpheroid ["lat0", "lon0", "h0", "az", "tilt"] = some [] ∧
    mayModify skelLoxodromeInverse ["lat1", "lon1", "lat2", "lon2"] = some [] ∧
    mayModify skelLoxodromeDirect ["lat1", "lon1", "rng", "a12"] = some [] ∧
    mayModify (skelVdist true "lat1" "lon1" "lat2" "lon2") ["lat1", "lon1", "lat2", "lon2"] = some [] ∧
    mayModify (skelVdist false "lat1" "lon1" "lat2" "lon2") ["lat1", "lon1", "lat2", "lon2"] = some ["lat1", "lat2"] ∧
    mayModify (skelVreckon true "lat1" "lon1" "rng" "azim") ["lat1", "lon1", "rng", "azim"] = some [] ∧
    mayModify (skelVreckon false "lat1" "lon1" "rng" "azim") ["lat1", "lon1", "rng", "azim"] = some ["lat1"] ∧
    mayModify (skelTrack2 true) ["lat1", "lon1", "lat2", "lon2"] = some [] ∧
    mayModify (skelTrack2 false) ["lat1", "lon1", "lat2", "lon2"] = some ["lat1", "lat2"] ∧
    mayModify skelApplyRotation ["x", "y", "z"] = some [] ∧
    mayModify skelApplyStateRotation ["x", "y", "z", "vx", "vy", "vz"] = some [] := by
  refine ⟨?_, ?_, ?_, ?_, ?_, ?_, ?_, ?_, ?_, ?_, ?_, ?_, ?_, ?_, ?_, ?_, ?_, ?_, ?_, ?_⟩ <;> decide +kernel

/-- **C56.** For example: no execution of `ecef2geodetic` on any three arrays, completed or not, changes any array of the caller. -/
theorem ecef2geodetic_frame {C : Type} (σ σ' : ObjState C) (d : Bool) (hx : Exec (skelEcef2geodetic "x" "y" "z") σ σ' d)
    (hentry : ∀ v l, σ.env v = some l → v ∈ ["x", "y", "z"]) (l : Nat) (hl : l < σ.heap.length) : σ'.heap[l]? = σ.heap[l]? :=
  exec_frame _ _ _ mutation_table.2.2.2.2.2.2.2.1 σ σ' d hx hentry l hl (by simp)

/-- there are completed executions that do modify a listed parameter -/
example : ∃ σ' : ObjState Nat, Exec (skelEnu2aer "e" "n" "u")
    ⟨fun v => if v = "e" then some 0 else none, [7]⟩ σ' false ∧ σ'.heap[0]? = some 8 := by
  refine ⟨⟨_, [8]⟩, .seq _ _ _ _ _ _ (.share ..) (.seq _ _ _ _ _ _ (.share ..) (.seq _ _ _ _ _ _ (.share ..)
    (.seqRaise _ _ _ _ (.choiceL _ _ _ _ _ (.seq _ _ _ _ _ _ (.inplace _ _ 0 8 rfl) (.raise _ _)))))), rfl⟩

end Pymap3d
