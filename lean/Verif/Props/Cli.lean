import Verif.Model.Cli
import Verif.Model.CliTable
import Verif.Model.Nvector
import Mathlib.Data.List.Forall2
import Mathlib.Data.List.Sort
import Mathlib.Data.List.Induction
import Mathlib.Tactic.SplitIfs
import Mathlib.Tactic.Push
/-!
# C55: the command line
-/
set_option linter.unusedSectionVars false
namespace Pymap3d
open Py

section text
variable {F : Type} (P : Platform F)

/-! ## text -/

theorem strip_cons_space {c : Char} (hc : P.isSpace c = true) (w : Text) : strip P (c :: w) = strip P w := by
  simp [strip, hc]

theorem dropWhile_append_single (p : Char → Bool) (w : Text) (c : Char) (hc : p c = true) :
    ((w ++ [c]).dropWhile p).reverse.dropWhile p = (w.dropWhile p).reverse.dropWhile p := by
  induction w with
  | nil => simp [hc]
  | cons a w ih =>
    by_cases ha : p a = true
    · simpa [ha] using ih
    · simp [ha, hc]

theorem strip_append_space {c : Char} (hc : P.isSpace c = true) (w : Text) : strip P (w ++ [c]) = strip P w := by
  simp only [strip, dropWhile_append_single _ _ _ hc]

theorem splitComma_ne_nil (t : Text) : splitComma t ≠ [] := by
  cases t with
  | nil => simp [splitComma]
  | cons c cs =>
    simp only [splitComma]; split_ifs
    · simp
    · split <;> simp

theorem splitComma_cons {c : Char} (hc : c ≠ ',') (cs : Text) :
    ∃ w ws, splitComma cs = w :: ws ∧ splitComma (c :: cs) = (c :: w) :: ws := by
  cases h : splitComma cs with
  | nil => exact absurd h (splitComma_ne_nil cs)
  | cons w ws => exact ⟨w, ws, rfl, by simp only [splitComma, if_neg hc, h]⟩

theorem splitComma_snoc (cs : Text) : ∃ init w, splitComma cs = init ++ [w] ∧
    ∀ c, splitComma (cs ++ [c]) = if c = ',' then init ++ [w, []] else init ++ [w ++ [c]] := by
  induction cs with
  | nil =>
    refine ⟨[], [], rfl, fun c => ?_⟩
    simp only [List.nil_append, splitComma]
  | cons a cs ih =>
    obtain ⟨init, w, h1, h2⟩ := ih
    by_cases ha : a = ','
    · refine ⟨[] :: init, w, by simp [splitComma, ha, h1], fun c => ?_⟩
      simp only [List.cons_append, splitComma, if_pos ha, h2 c]; split_ifs <;> rfl
    · cases init with
      | nil =>
        refine ⟨[], a :: w, by simp [splitComma, ha, h1], fun c => ?_⟩
        simp only [List.cons_append, splitComma, if_neg ha, h2 c]; split_ifs <;> rfl
      | cons v vs =>
        refine ⟨(a :: v) :: vs, w, by simp [splitComma, ha, h1], fun c => ?_⟩
        simp only [List.cons_append, splitComma, if_neg ha, h2 c]; split_ifs <;> rfl

/-- stripping the whole text first does not change the stripped items of a comma list -/
theorem splitComma_strip (hcomma : P.isSpace ',' = false) (t : Text) :
    (splitComma (strip P t)).map (strip P) = (splitComma t).map (strip P) := by
  have h1 : ∀ t : Text, (splitComma (t.dropWhile P.isSpace)).map (strip P) = (splitComma t).map (strip P) := by
    intro t
    induction t with
    | nil => rfl
    | cons c cs ih =>
      by_cases hc : P.isSpace c = true
      · have hne : c ≠ ',' := by rintro rfl; rw [hcomma] at hc; cases hc
        obtain ⟨w, ws, e1, e2⟩ := splitComma_cons hne cs
        rw [List.dropWhile_cons_of_pos hc, ih, e1, e2]
        simp [strip_cons_space P hc]
      · rw [List.dropWhile_cons_of_neg hc]
  have h2 : ∀ t : Text, (splitComma (t.reverse.dropWhile P.isSpace).reverse).map (strip P)
      = (splitComma t).map (strip P) := by
    intro t
    induction t using List.reverseRecOn with
    | nil => rfl
    | append_singleton cs c ih =>
      by_cases hc : P.isSpace c = true
      · have hne : c ≠ ',' := by rintro rfl; rw [hcomma] at hc; cases hc
        obtain ⟨init, w, e1, e2⟩ := splitComma_snoc cs
        rw [List.reverse_append, List.reverse_singleton, List.singleton_append, List.dropWhile_cons_of_pos hc, ih,
          e1, e2, if_neg hne]
        simp [strip_append_space P hc]
      · rw [List.reverse_append, List.reverse_singleton, List.singleton_append, List.dropWhile_cons_of_neg hc]
        simp
  rw [strip, h2, h1]

/-- items joined with commas -/
def joinComma : List Text → Text
  | [] => []
  | [w] => w
  | w :: v :: ws => w ++ ',' :: joinComma (v :: ws)

theorem splitComma_word_append (w : Text) (hw : ',' ∉ w) (r : Text) : splitComma (w ++ ',' :: r) = w :: splitComma r := by
  induction w with
  | nil => simp [splitComma]
  | cons c w ih =>
    have hc : c ≠ ',' := by rintro rfl; simp at hw
    have hw' : ',' ∉ w := fun h => hw (List.mem_cons_of_mem _ h)
    simp only [List.cons_append, splitComma, if_neg hc, ih hw']

theorem splitComma_word (w : Text) (hw : ',' ∉ w) : splitComma w = [w] := by
  induction w with
  | nil => rfl
  | cons c w ih =>
    have hc : c ≠ ',' := by rintro rfl; simp at hw
    have hw' : ',' ∉ w := fun h => hw (List.mem_cons_of_mem _ h)
    simp only [splitComma, if_neg hc, ih hw']

theorem splitComma_join (ws : List Text) (hne : ws ≠ []) (h : ∀ w ∈ ws, ',' ∉ w) : splitComma (joinComma ws) = ws := by
  induction ws with
  | nil => exact absurd rfl hne
  | cons w ws ih =>
    cases ws with
    | nil => exact splitComma_word w (h w (by simp))
    | cons v vs =>
      simp only [joinComma]
      rw [splitComma_word_append w (h w (by simp)), ih (by simp) (fun x hx => h x (List.mem_cons_of_mem _ hx))]

theorem mem_dropWhile {p : Char → Bool} {c : Char} (hc : p c = false) {t : Text} (h : c ∈ t) : c ∈ t.dropWhile p := by
  induction t with
  | nil => cases h
  | cons a t ih =>
    by_cases ha : p a = true
    · rw [List.dropWhile_cons_of_pos ha]
      rcases List.mem_cons.mp h with rfl | h
      · rw [hc] at ha; cases ha
      · exact ih h
    · rwa [List.dropWhile_cons_of_neg ha]

theorem mem_strip (c : Char) (hc : P.isSpace c = false) (t : Text) : c ∈ strip P t ↔ c ∈ t := by
  constructor
  · intro h
    rw [strip, List.mem_reverse] at h
    have := (List.dropWhile_sublist _).subset h
    rw [List.mem_reverse] at this
    exact (List.dropWhile_sublist _).subset this
  · intro h
    rw [strip, List.mem_reverse]
    apply mem_dropWhile hc
    rw [List.mem_reverse]
    exact mem_dropWhile hc h

theorem strip_of_no_space (t : Text) (h : ∀ c ∈ t, P.isSpace c = false) : strip P t = t := by
  have h1 : ∀ t : Text, (∀ c ∈ t, P.isSpace c = false) → t.dropWhile P.isSpace = t := by
    intro t h
    cases t with
    | nil => rfl
    | cons a t => rw [List.dropWhile_cons_of_neg (by simp [h a])]
  rw [strip, h1 t h, h1 t.reverse (fun c hc => h c (List.mem_reverse.mp hc)), List.reverse_reverse]

theorem mapM_forall2 {α β : Type} (f : α → Option β) (l : List α) (r : List β) :
    l.mapM f = some r ↔ List.Forall₂ (fun a b => f a = some b) l r := by
  induction l generalizing r with
  | nil => simp [List.mapM_nil, eq_comm]
  | cons a l ih =>
    rw [List.mapM_cons]
    cases ha : f a with
    | none =>
      simp only [Option.bind_eq_bind, Option.bind_none, List.forall₂_cons_left_iff, ha]
      simp
    | some b =>
      cases hl : l.mapM f with
      | none =>
        simp only [Option.bind_eq_bind, Option.bind_some, Option.bind_none]
        constructor
        · intro h; cases h
        · intro h
          rw [List.forall₂_cons_left_iff] at h
          obtain ⟨b', u, -, h2, -⟩ := h
          rw [(ih u).mpr h2] at hl; cases hl
      | some bs =>
        simp only [Option.bind_eq_bind, Option.bind_some, List.forall₂_cons_left_iff, ha, Option.some.injEq]
        have := (ih bs).mp hl
        constructor
        · intro h
          refine ⟨b, bs, rfl, this, ?_⟩
          have : b :: bs = r := by simpa using h
          exact this.symm
        · rintro ⟨b', u, rfl, h2, rfl⟩
          have := (ih u).mpr h2
          rw [hl] at this; cases this; rfl

/-- **C55.** A comma list of numbers, with arbitrary white space around the items, becomes the list of those
numbers: any number (at least two) of items. -/
theorem coerce_list (hcomma : P.isSpace ',' = false) (p : Param) (hp : isDatetimeParam p = false) (items : List Text)
    (h2 : 2 ≤ items.length) (hnc : ∀ w ∈ items, ',' ∉ w) (xs : List F)
    (hx : List.Forall₂ (fun w x => P.parseFloat (strip P w) = some x) items xs) :
    coerceValue P (.text (joinComma items)) p = .ok (.nums xs) := by
  obtain ⟨w, v, ws, rfl⟩ : ∃ w v ws, items = w :: v :: ws := by
    match items, h2 with
    | w :: v :: ws, _ => exact ⟨w, v, ws, rfl⟩
  have hm : ',' ∈ strip P (joinComma (w :: v :: ws)) := by
    rw [mem_strip P _ hcomma]; simp [joinComma]
  have hs := splitComma_strip P hcomma (joinComma (w :: v :: ws))
  rw [splitComma_join _ (by simp) hnc] at hs
  have e : (splitComma (strip P (joinComma (w :: v :: ws)))).mapM (fun x => P.parseFloat (strip P x)) = some xs := by
    rw [mapM_forall2]
    have h3 : List.Forall₂ (fun a b => P.parseFloat a = some b) ((w :: v :: ws).map (strip P)) xs := by
      rw [List.forall₂_map_left_iff]; exact hx
    rw [← hs, List.forall₂_map_left_iff] at h3
    exact h3
  simp only [coerceValue, hp, Bool.false_eq_true, if_false, if_pos hm, e]

/-- **C55.** If one of the items is not a number, the function receives the whole text, stripped. -/
theorem coerce_list_bad (hcomma : P.isSpace ',' = false) (p : Param) (hp : isDatetimeParam p = false) (items : List Text)
    (h2 : 2 ≤ items.length) (hnc : ∀ w ∈ items, ',' ∉ w) (hbad : ∃ w ∈ items, P.parseFloat (strip P w) = none) :
    coerceValue P (.text (joinComma items)) p = .ok (.text (strip P (joinComma items))) := by
  obtain ⟨w, v, ws, rfl⟩ : ∃ w v ws, items = w :: v :: ws := by
    match items, h2 with
    | w :: v :: ws, _ => exact ⟨w, v, ws, rfl⟩
  have hm : ',' ∈ strip P (joinComma (w :: v :: ws)) := by
    rw [mem_strip P _ hcomma]; simp [joinComma]
  have hs := splitComma_strip P hcomma (joinComma (w :: v :: ws))
  rw [splitComma_join _ (by simp) hnc] at hs
  have e : (splitComma (strip P (joinComma (w :: v :: ws)))).mapM (fun x => P.parseFloat (strip P x)) = none := by
    cases h : (splitComma (strip P (joinComma (w :: v :: ws)))).mapM (fun x => P.parseFloat (strip P x)) with
    | none => rfl
    | some xs =>
      exfalso
      rw [mapM_forall2] at h
      have h3 : List.Forall₂ (fun a b => P.parseFloat a = some b) ((splitComma (strip P (joinComma (w :: v :: ws)))).map (strip P)) xs := by
        rw [List.forall₂_map_left_iff]; exact h
      rw [hs, List.forall₂_map_left_iff] at h3
      obtain ⟨u, hu, hn⟩ := hbad
      have : ∀ (l : List Text) (ys : List F), List.Forall₂ (fun a b => P.parseFloat (strip P a) = some b) l ys → u ∉ l := by
        intro l ys h4
        induction h4 with
        | nil => simp
        | cons h5 _ ih =>
          intro hmem
          rcases List.mem_cons.mp hmem with rfl | hmem
          · rw [hn] at h5; cases h5
          · exact ih hmem
      exact this _ _ h3 hu
  simp only [coerceValue, hp, Bool.false_eq_true, if_false, if_pos hm, e]

/-- **C55.** A single word: a number if Python's `float` accepts it, otherwise the stripped text. -/
theorem coerce_word (hcomma : P.isSpace ',' = false) (p : Param) (hp : isDatetimeParam p = false) (w : Text) (hw : ',' ∉ w) :
    coerceValue P (.text w) p = .ok (match P.parseFloat (strip P w) with | some x => .num x | none => .text (strip P w)) := by
  have hm : ',' ∉ strip P w := by rw [mem_strip P _ hcomma]; exact hw
  simp only [coerceValue, hp, Bool.false_eq_true, if_false, if_neg hm]
  cases P.parseFloat (strip P w) <;> rfl

/-- **C55.** Parameters named `t` or `time` go through `str2dt`, and only those (and those annotated with the class
`datetime` itself); bad dates propagate the error of `fromisoformat`. -/
theorem coerce_datetime (p : Param) (hp : isDatetimeParam p = true) (w : Text) :
    coerceValue P (.text w) p = (P.fromiso w).map CliVal.dt := by
  simp only [coerceValue, hp, if_true]
  cases P.fromiso w <;> rfl

/-- **C55.** Which parameters are dates: those annotated with the class `datetime` itself, and those called `t` or `time` in
any mixture of upper and lower case. -/
theorem isDatetimeParam_iff (p : Param) : isDatetimeParam p = true ↔
    p.annDatetime = true ∨ p.name.toList.map Char.toLower = "t".toList ∨ p.name.toList.map Char.toLower = "time".toList := by
  simp only [isDatetimeParam, Bool.or_eq_true, decide_eq_true_eq, or_assoc]
  rfl

end text

/-! ## the call -/
section call
variable {F : Type} [OfScientific F] (P : Platform F) (ell : Ellipsoid F) (given : String → Supply)

/-- **C55.** The function is called with exactly one keyword argument per parameter of its signature, in order,
each computed from that parameter alone. -/
theorem callKwargs_spec (params : List Param) (r : List (String × CliVal F)) :
    callKwargs P ell given params = .ok r ↔ List.Forall₂ (fun p a => kwarg P ell given p = .ok a) params r := by
  induction params generalizing r with
  | nil =>
    simp only [callKwargs, List.forall₂_nil_left_iff, Except.ok.injEq]
    exact eq_comm
  | cons p ps ih =>
    rw [List.forall₂_cons_left_iff]
    cases h1 : kwarg P ell given p with
    | error e =>
      simp only [callKwargs, h1]
      constructor
      · intro h; cases h
      · rintro ⟨b, u, h, -⟩; cases h
    | ok a =>
      cases h2 : callKwargs P ell given ps with
      | error e =>
        simp only [callKwargs, h1, h2]
        constructor
        · intro h; cases h
        · rintro ⟨b, u, -, h, -⟩; rw [← ih, h2] at h; cases h
      | ok rest =>
        simp only [callKwargs, h1, h2]
        constructor
        · intro h; cases h; exact ⟨a, rest, rfl, (ih rest).mp h2, rfl⟩
        · rintro ⟨b, u, h, h', rfl⟩
          cases h
          rw [← ih, h2] at h'; cases h'; rfl

theorem kwarg_name (p : Param) (a : String × CliVal F) (h : kwarg P ell given p = .ok a) : a.1 = p.name := by
  unfold kwarg at h
  split_ifs at h with he
  · cases h; rfl
  · cases h1 : namespaceValue (addParameterArg P p) (given p.name) with
    | error e => rw [h1] at h; cases h
    | ok raw =>
      rw [h1] at h
      cases h2 : coerceValue P raw p with
      | error e => simp only [bind, Except.bind, h2] at h; cases h
      | ok v => simp only [bind, Except.bind, h2] at h; cases h; rfl

theorem callKwargs_names (params : List Param) (r : List (String × CliVal F)) (h : callKwargs P ell given params = .ok r) :
    r.map Prod.fst = params.map Param.name := by
  rw [callKwargs_spec] at h
  induction h with
  | nil => rfl
  | cons h1 _ ih => simp only [List.map_cons, ih, kwarg_name P ell given _ _ h1]

/-- **C55.** a parameter called `ell` receives the ellipsoid chosen with `--ellipsoid`, whatever was typed -/
theorem kwarg_ell (p : Param) (h : p.name = "ell") : kwarg P ell given p = .ok ("ell", .ell ell) := by
  simp only [kwarg, h, if_true]

/-- **C55.** A boolean parameter is the last of the `--x` / `--no-x` flags, or its default without flags. -/
theorem kwarg_bool (p : Param) (hne : p.name ≠ "ell") (d : Bool) (hd : p.default = some (.bool d)) (l : List Bool)
    (hg : given p.name = .flags l) : kwarg P ell given p = .ok (p.name, .bool (l.getLast?.getD d)) := by
  simp only [kwarg, if_neg hne, addParameterArg, hd, hg, namespaceValue, coerceValue]
  rfl

theorem kwarg_bool_absent (p : Param) (hne : p.name ≠ "ell") (d : Bool) (hd : p.default = some (.bool d))
    (hg : given p.name = .absent) : kwarg P ell given p = .ok (p.name, .bool d) := by
  simp only [kwarg, if_neg hne, addParameterArg, hd, hg, namespaceValue, coerceValue]
  rfl

/-- **C55.** Given text reaches the function through the coercion, for positional and optional parameters alike. -/
theorem kwarg_text (p : Param) (hne : p.name ≠ "ell") (hd : ∀ b, p.default ≠ some (.bool b)) (t : Text)
    (hg : given p.name = .text t) : kwarg P ell given p = (coerceValue P (.text t) p).map (fun v => (p.name, v)) := by
  have : namespaceValue (addParameterArg P p) (given p.name) = .ok (.text t) := by
    rw [hg]
    simp only [addParameterArg, if_neg hne]
    cases h : p.default with
    | none => rfl
    | some d => cases d <;> first | rfl | exact absurd h (hd _)
  simp only [kwarg, if_neg hne, this]
  cases h : coerceValue P (.text t) p <;> simp only [bind, Except.bind, h] <;> rfl

/-- **C55.** a missing positional argument ends the program with status 2 -/
theorem kwarg_missing (p : Param) (hne : p.name ≠ "ell") (hd : p.default = none) (hg : given p.name = .absent) :
    kwarg P ell given p = .error (.systemExit 2) := by
  simp only [kwarg, if_neg hne, addParameterArg, hd, hg, namespaceValue]
  rfl

/-- what is assumed about Python's `float`, `str` and white space to speak about the defaults -/
structure Platform.Sane (P : Platform F) : Prop where
  comma : P.isSpace ',' = false
  letters : ∀ c ∈ "zyxnedNone".toList, P.isSpace c = false
  zyx : P.parseFloat "zyx".toList = none
  ned : P.parseFloat "ned".toList = none
  None : P.parseFloat "None".toList = none
  zero_text : strip P (P.showFloat 0.0) = P.showFloat 0.0
  zero_comma : ',' ∉ P.showFloat 0.0
  zero : P.parseFloat (P.showFloat 0.0) = some 0.0
  izero_space : P.isSpace '0' = false
  izero : P.parseFloat ['0'] = some 0.0

/-- the value a default stands for -/
def defaultValue : DefaultVal → CliVal F
  | .bool b => .bool b
  | .flt m s e => .num (OfScientific.ofScientific m s e)
  | .int n => .num (OfScientific.ofScientific n true 1)
  | .str s => .text s.toList
  | .none => .none

set_option maxRecDepth 100000 in
/-- every default in the exported signatures, apart from `ell=None` -/
theorem exportTable_defaults : ∀ e ∈ exportTable, ∀ p ∈ e.params, p.name ≠ "ell" →
    p.default = none ∨ p.default = some (.bool true) ∨ p.default = some (.bool false) ∨ p.default = some (.flt 0 true 1) ∨
      p.default = some (.int 0) ∨ p.default = some (.str "zyx") ∨ p.default = some (.str "ned") ∨ p.default = some .none := by
  decide

set_option maxRecDepth 100000 in
theorem exportTable_dates : ∀ e ∈ exportTable, ∀ p ∈ e.params, p.default ≠ none → isDatetimeParam p = false := by
  decide

/-- **C55.** An omitted option has its Python default: for every exported function and every parameter whose default
is not `None`. -/
theorem cli_defaults (hP : P.Sane) : ∀ e ∈ exportTable, ∀ p ∈ e.params, p.name ≠ "ell" → ∀ d, p.default = some d → d ≠ .none →
    given p.name = .absent → kwarg P ell given p = .ok (p.name, defaultValue d) := by
  intro e he p hp hne d hd hnone hg
  have hdate := exportTable_dates e he p hp (by rw [hd]; simp)
  have key : ∀ (t : Text) (v : CliVal F), addParameterArg P p = .option t → coerceValue P (.text t) p = .ok v →
      kwarg P ell given p = .ok (p.name, v) := by
    intro t v h1 h2
    simp only [kwarg, if_neg hne, h1, hg, namespaceValue, bind, Except.bind, h2]
    rfl
  have hword : ∀ (t : Text), ',' ∉ t → (∀ c ∈ t, P.isSpace c = false) → P.parseFloat t = none →
      coerceValue P (.text t) p = .ok (.text t) := by
    intro t h1 h2 h3
    rw [coerce_word P hP.comma p hdate t h1, strip_of_no_space P t h2, h3]
  rcases exportTable_defaults e he p hp hne with h | h | h | h | h | h | h | h <;> rw [hd] at h <;> cases h
  · exact kwarg_bool_absent P ell given p hne true hd hg
  · exact kwarg_bool_absent P ell given p hne false hd hg
  · refine key (P.showFloat 0.0) _ (by simp only [addParameterArg, if_neg hne, hd, showDefault]) ?_
    rw [coerce_word P hP.comma p hdate _ hP.zero_comma, hP.zero_text, hP.zero]; rfl
  · refine key ['0'] _ (by simp only [addParameterArg, if_neg hne, hd, showDefault]; rfl) ?_
    rw [coerce_word P hP.comma p hdate _ (by decide), strip_of_no_space P ['0'] (by simp [hP.izero_space]), hP.izero]; rfl
  · refine key "zyx".toList _ (by simp only [addParameterArg, if_neg hne, hd, showDefault]) (hword _ (by decide) (fun c hc => ?_) hP.zyx)
    exact hP.letters c (by revert c; decide)
  · refine key "ned".toList _ (by simp only [addParameterArg, if_neg hne, hd, showDefault]) (hword _ (by decide) (fun c hc => ?_) hP.ned)
    exact hP.letters c (by revert c; decide)
  · exact absurd rfl hnone

/-! ### the two parameters whose default is `None` -/

set_option maxRecDepth 100000 in
/-- `radius` of `nvector_distance` and `nvector_cross_track_distance` are the only parameters, `ell` aside, with the default
`None` -/
theorem exportTable_none : ∀ e ∈ exportTable, ∀ p ∈ e.params, p.default = some .none → p.name ≠ "ell" →
    p.name = "radius" ∧ (e.name = "nvector_distance" ∨ e.name = "nvector_cross_track_distance") := by
  decide

set_option maxRecDepth 100000 in
theorem exportTable_none_exists : ∀ n ∈ ["nvector_distance", "nvector_cross_track_distance"],
    ∃ e ∈ exportTable, e.name = n ∧ (⟨"radius", false, some .none⟩ : Param) ∈ e.params := by
  decide

/-- An omitted option with default `None` reaches the function as the text `None`, not as the value `None`. -/
theorem cli_none_default (hP : P.Sane) (p : Param) (hp : isDatetimeParam p = false) (hne : p.name ≠ "ell")
    (hd : p.default = some .none) (hg : given p.name = .absent) :
    kwarg P ell given p = .ok (p.name, .text "None".toList) := by
  have h1 : addParameterArg P p = .option "None".toList := by simp only [addParameterArg, if_neg hne, hd, showDefault]
  have h2 : coerceValue P (.text "None".toList) p = .ok (.text "None".toList) := by
    rw [coerce_word P hP.comma p hp _ (by decide), strip_of_no_space P _ (fun c hc => hP.letters c (by revert c; decide)), hP.None]
  simp only [kwarg, if_neg hne, h1, hg, namespaceValue, bind, Except.bind, h2]
  rfl

end call
end Pymap3d
