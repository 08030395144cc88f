import Verif.Py.Kind
/-!
Broadcasting is a semilattice: associative, commutative, idempotent; Python numbers are neutral, an impossible broadcast is absorbing.
-/
namespace Py

theorem bcDim_comm (a b : Nat) : bcDim a b = bcDim b a := by
  unfold bcDim
  by_cases h : a = b
  · subst h; rfl
  · have h' : ¬ b = a := fun e => h e.symm
    by_cases h1 : a = 1 <;> by_cases h2 : b = 1 <;> simp_all

theorem bcShape_nil_right (s : List Nat) : bcShape s [] = some s := by cases s <;> rfl

theorem bcShape_comm : ∀ s t : List Nat, bcShape s t = bcShape t s
  | [], t => by rw [bcShape_nil_right]; rfl
  | a :: s, [] => rfl
  | a :: s, b :: t => by simp only [bcShape, bcDim_comm a b, bcShape_comm s t]

theorem bcShape_idem : ∀ s : List Nat, bcShape s s = some s
  | [] => rfl
  | a :: s => by simp [bcShape, bcShape_idem s, bcDim]

theorem bcDim_assoc (a b c : Nat) : (bcDim a b).bind (fun d => bcDim d c) = (bcDim b c).bind (fun d => bcDim a d) := by
  unfold bcDim
  by_cases h1 : a = b
  · subst h1
    by_cases h2 : a = c
    · subst h2; simp
    · by_cases h3 : a = 1
      · subst h3; simp [h2]
      · by_cases h4 : c = 1
        · subst h4; simp [h3]
        · simp [h2, h3, h4]
  · by_cases h2 : b = c
    · subst h2
      by_cases h3 : a = 1
      · subst h3; simp [h1]
      · by_cases h4 : b = 1
        · subst h4; simp [h3]
        · simp [h1, h3, h4]
    · by_cases h3 : a = 1
      · subst h3
        by_cases h4 : b = 1
        · simp_all
        · by_cases h5 : c = 1
          · subst h5; simp_all
          · simp_all
      · by_cases h4 : b = 1
        · subst h4
          by_cases h5 : c = 1
          · simp_all
          · by_cases h6 : a = c <;> simp_all
        · by_cases h5 : c = 1
          · subst h5; simp_all
          · simp_all

theorem bcShape_assoc : ∀ s t r : List Nat, (bcShape s t).bind (fun d => bcShape d r) = (bcShape t r).bind (fun d => bcShape s d)
  | [], t, r => by
    show bcShape t r = (bcShape t r).bind some
    cases bcShape t r <;> rfl
  | a :: s, [], r => rfl
  | a :: s, b :: t, [] => by
    simp only [bcShape_nil_right]
    show (bcShape (a :: s) (b :: t)).bind some = bcShape (a :: s) (b :: t)
    cases bcShape (a :: s) (b :: t) <;> rfl
  | a :: s, b :: t, c :: r => by
    have h1 := bcDim_assoc a b c
    have h2 := bcShape_assoc s t r
    simp only [bcShape]
    cases ha : bcDim a b with
    | none =>
      rw [ha] at h1
      cases hb : bcDim b c with
      | none => rfl
      | some d =>
        rw [hb] at h1
        cases ht : bcShape t r with
        | none => rfl
        | some q =>
          have h1' : bcDim a d = none := h1.symm
          show none = bcShape (a :: s) (d :: q)
          simp [bcShape, h1']
    | some e =>
      rw [ha] at h1
      cases hs : bcShape s t with
      | none =>
        rw [hs] at h2
        cases hb : bcDim b c with
        | none => rfl
        | some d =>
          cases ht : bcShape t r with
          | none => rfl
          | some q =>
            rw [ht] at h2
            have h2' : bcShape s q = none := h2.symm
            show none = bcShape (a :: s) (d :: q)
            simp [bcShape, h2']
      | some p =>
        rw [hs] at h2
        cases hb : bcDim b c with
        | none =>
          rw [hb] at h1
          have h1' : bcDim e c = none := h1
          show bcShape (e :: p) (c :: r) = none
          simp [bcShape, h1']
        | some d =>
          rw [hb] at h1
          have h1' : bcDim e c = bcDim a d := h1
          cases ht : bcShape t r with
          | none =>
            rw [ht] at h2
            have h2' : bcShape p r = none := h2
            show bcShape (e :: p) (c :: r) = none
            simp [bcShape, h2']
          | some q =>
            rw [ht] at h2
            have h2' : bcShape p r = bcShape s q := h2
            show bcShape (e :: p) (c :: r) = bcShape (a :: s) (d :: q)
            simp only [bcShape, h1', h2']

namespace Kind

theorem join_py (k : Kind) : join k .py = k := by cases k <;> rfl
theorem py_join (k : Kind) : join .py k = k := rfl
theorem join_bad (k : Kind) : join k .bad = .bad := by cases k <;> rfl
theorem bad_join (k : Kind) : join .bad k = .bad := rfl
theorem join_idem (k : Kind) : join k k = k := by
  cases k <;> simp [join, bcShape_idem]
theorem join_comm (a b : Kind) : join a b = join b a := by
  cases a <;> cases b <;> simp [join, bcShape_comm]
theorem join_arr (s t : List Nat) : join (.arr s) (.arr t) = match bcShape s t with
    | some r => .arr r
    | none => .bad := rfl
theorem join_assoc (a b c : Kind) : join (join a b) c = join a (join b c) := by
  cases a with
  | py => rfl
  | bad => rfl
  | np => cases b <;> cases c <;> first | rfl | (rw [join_arr]; show join (.arr _) (.arr _) = _; rw [join_arr]; cases bcShape _ _ <;> rfl)
  | arr s =>
    cases b with
    | py => rfl
    | bad => rfl
    | np => cases c <;> rfl
    | arr t =>
      cases c with
      | py => rw [join_py, join_py]
      | bad => rw [join_bad, join_bad, join_bad]
      | np =>
        show join (join (.arr s) (.arr t)) .np = join (.arr s) (.arr t)
        rw [join_arr]; cases bcShape s t <;> rfl
      | arr r =>
        have h := bcShape_assoc s t r
        rw [join_arr s t, join_arr t r]
        cases hs : bcShape s t with
        | none =>
          rw [hs] at h
          cases ht : bcShape t r with
          | none => rfl
          | some q =>
            rw [ht] at h
            have h' : bcShape s q = none := h.symm
            show Kind.bad = join (.arr s) (.arr q)
            rw [join_arr, h']
        | some p =>
          rw [hs] at h
          cases ht : bcShape t r with
          | none =>
            rw [ht] at h
            have h' : bcShape p r = none := h
            show join (.arr p) (.arr r) = Kind.bad
            rw [join_arr, h']
          | some q =>
            rw [ht] at h
            have h' : bcShape p r = bcShape s q := h
            show join (.arr p) (.arr r) = join (.arr s) (.arr q)
            rw [join_arr, join_arr, h']

instance : Std.Associative join := ⟨join_assoc⟩
instance : Std.Commutative join := ⟨join_comm⟩
instance : Std.IdempotentOp join := ⟨join_idem⟩

theorem ufunc_eq (k : Kind) : ufunc k = join k .np := rfl
theorem add_eq (a b : Kind) : a + b = join a b := rfl
theorem sub_eq (a b : Kind) : a - b = join a b := rfl
theorem mul_eq (a b : Kind) : a * b = join a b := rfl
theorem div_eq (a b : Kind) : a / b = join a b := rfl
theorem neg_eq (a : Kind) : -a = a := rfl
theorem pow_eq (a : Kind) (n : Nat) : a ^ n = a := rfl

end Kind
end Py
