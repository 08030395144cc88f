import Verif.Props.Cli
import Verif.Model.CliCall
import Verif.Props.Radii
/-!
# C55: registration of the commands, end-to-end runs, output
-/
set_option linter.unusedSectionVars false
namespace Pymap3d
open Py

/-! ## registration -/

/-- which exports become commands -/
def ExportEntry.Registrable (e : ExportEntry) : Prop := e.name ≠ "Ellipsoid" ∧ e.isClass = false ∧ e.variadic = false

instance (e : ExportEntry) : Decidable e.Registrable := by unfold ExportEntry.Registrable; infer_instance

theorem registerLoop_spec (l : List ExportEntry) :
    registerLoop l = if ∀ e ∈ l, e.Registrable → e.hasDoc = true then .ok (l.filter (fun e => decide e.Registrable))
      else .error .indexError := by
  induction l with
  | nil => simp [registerLoop]
  | cons e es ih =>
    by_cases hr : e.Registrable
    · have hn : ¬(e.name = "Ellipsoid" ∨ e.isClass = true ∨ e.variadic = true) := by
        rintro (h | h | h)
        · exact hr.1 h
        · rw [hr.2.1] at h; cases h
        · rw [hr.2.2] at h; cases h
      simp only [registerLoop, if_neg hn]
      by_cases hd : e.hasDoc = true
      · simp only [hd, if_true, ih]
        by_cases hall : ∀ e ∈ es, e.Registrable → e.hasDoc = true
        · rw [if_pos hall, if_pos (by intro x hx; rcases List.mem_cons.mp hx with rfl | hx; exacts [fun _ => hd, hall x hx])]
          rw [List.filter_cons_of_pos (by simpa using hr)]; rfl
        · rw [if_neg hall, if_neg (fun h => hall (fun x hx => h x (List.mem_cons_of_mem _ hx)))]; rfl
      · rw [if_neg (by simpa using hd), if_neg (fun h => hd (h e (by simp) hr))]
    · have hn : e.name = "Ellipsoid" ∨ e.isClass = true ∨ e.variadic = true := by
        by_contra h
        push Not at h
        exact hr ⟨h.1, by simpa using h.2.1, by simpa using h.2.2⟩
      simp only [registerLoop, if_pos hn, ih]
      have : (∀ x ∈ e :: es, x.Registrable → x.hasDoc = true) ↔ ∀ x ∈ es, x.Registrable → x.hasDoc = true := by
        constructor
        · intro h x hx; exact h x (List.mem_cons_of_mem _ hx)
        · intro h x hx hx'
          rcases List.mem_cons.mp hx with rfl | hx
          · exact absurd hx' hr
          · exact h x hx hx'
      simp only [this]
      rw [List.filter_cons_of_neg (by simpa using hr)]

/-- **C55.** For any list of exports: registration yields exactly the exported functions (no `Ellipsoid`, classes or
variadic functions), each as often as it is exported, in alphabetical order; it fails exactly when one of them has no
docstring. -/
theorem registerCommands_spec (l : List ExportEntry) :
    (∀ r, registerCommands l = .ok r → r.Perm (l.filter (fun e => decide e.Registrable)) ∧
      r.Pairwise (fun a b => a.name ≤ b.name)) ∧
    ((∃ r, registerCommands l = .ok r) ↔ ∀ e ∈ l, e.Registrable → e.hasDoc = true) := by
  have hp := List.mergeSort_perm l (fun a b => decide (a.name ≤ b.name))
  have hs : (l.mergeSort (fun a b => decide (a.name ≤ b.name))).Pairwise (fun a b => decide (a.name ≤ b.name) = true) :=
    List.pairwise_mergeSort (by simp only [decide_eq_true_eq]; intro a b c; exact String.le_trans)
      (by intro a b; simp only [Bool.or_eq_true, decide_eq_true_eq]; exact String.le_total _ _) l
  have hiff : (∀ e ∈ l.mergeSort (fun a b => decide (a.name ≤ b.name)), e.Registrable → e.hasDoc = true) ↔
      ∀ e ∈ l, e.Registrable → e.hasDoc = true := by
    constructor
    · intro h e he; exact h e (hp.mem_iff.mpr he)
    · intro h e he; exact h e (hp.mem_iff.mp he)
  rw [registerCommands, registerLoop_spec]
  simp only [hiff]
  constructor
  · intro r hr
    split_ifs at hr with h
    cases hr
    refine ⟨hp.filter _, ?_⟩
    have := hs.filter (fun e => decide e.Registrable)
    simpa using this
  · split_ifs with h
    · exact ⟨fun _ => h, fun _ => ⟨_, rfl⟩⟩
    · constructor
      · rintro ⟨r, hr⟩; cases hr
      · intro h'; exact absurd h' h

set_option maxRecDepth 100000 in
theorem exportTable_doc : ∀ e ∈ exportTable, e.Registrable → e.hasDoc = true := by decide

set_option maxRecDepth 100000 in
theorem exportTable_registrable : ∀ e ∈ exportTable, e.name ≠ "Ellipsoid" → e.Registrable := by decide

set_option maxRecDepth 100000 in
theorem exportTable_nodup : (exportTable.map (·.name)).Nodup := by decide

set_option maxRecDepth 100000 in
/-- **C55.** Within every command the parameter names are distinct, and none collides with a top-level option. -/
theorem exportTable_dests : ∀ e ∈ exportTable, (e.params.map (·.name)).Nodup ∧
    ∀ p ∈ e.params, p.name ∉ ["ellipsoid", "output", "precision", "command", "_func_name"] := by decide

theorem registered : ∃ cmds, registerCommands exportTable = .ok cmds ∧
    cmds.Perm (exportTable.filter (fun e => decide e.Registrable)) ∧ cmds.Pairwise (fun a b => a.name ≤ b.name) := by
  obtain ⟨h1, h2⟩ := registerCommands_spec exportTable
  obtain ⟨r, hr⟩ := h2.mpr exportTable_doc
  exact ⟨r, hr, h1 r hr⟩

/-- the result of a search by a key that is unique -/
theorem find_unique (l : List ExportEntry) (hn : (l.map (·.name)).Nodup) (e : ExportEntry) (he : e ∈ l) :
    l.find? (fun x => decide (x.name = e.name)) = some e := by
  induction l with
  | nil => cases he
  | cons a l ih =>
    rw [List.map_cons, List.nodup_cons] at hn
    rcases List.mem_cons.mp he with rfl | he
    · simp
    · have hne : a.name ≠ e.name := fun h => hn.1 (h ▸ List.mem_map_of_mem (f := (·.name)) he)
      rw [List.find?_cons_of_neg (by simpa using hne)]
      exact ih hn.2 he

/-- **C55.** Every exported function (all of `__all__` but the class `Ellipsoid`) is a command and is the one selected by its
name; any other word exits with status 2. -/
theorem command_select : ∃ cmds, registerCommands exportTable = .ok cmds ∧
    (∀ e ∈ exportTable, e.name ≠ "Ellipsoid" → selectCommand cmds e.name = .ok e) ∧
    (∀ w, (∀ e ∈ exportTable, e.name ≠ "Ellipsoid" → e.name ≠ w) → selectCommand cmds w = .error (.systemExit 2)) := by
  obtain ⟨cmds, h1, hp, -⟩ := registered
  refine ⟨cmds, h1, ?_, ?_⟩
  · intro e he hne
    have hmem : e ∈ cmds := hp.mem_iff.mpr (List.mem_filter.mpr ⟨he, by simpa using exportTable_registrable e he hne⟩)
    have hnd : (cmds.map (·.name)).Nodup := by
      have h2 : ((exportTable.filter (fun e => decide e.Registrable)).map (·.name)).Nodup :=
        exportTable_nodup.sublist (List.Sublist.map _ List.filter_sublist)
      exact ((hp.map (·.name)).nodup_iff).mpr h2
    rw [selectCommand, find_unique cmds hnd e hmem]
  · intro w hw
    have : cmds.find? (fun x => decide (x.name = w)) = none := by
      rw [List.find?_eq_none]
      intro x hx
      have hx' := List.mem_filter.mp (hp.mem_iff.mp hx)
      have hr : x.Registrable := by simpa using hx'.2
      simpa using hw x hx'.1 hr.1
    rw [selectCommand, this]

/-! ## the ellipsoid option -/

theorem ellipsoidChoices_eq : ellipsoidChoices ℝ = (models (F := ℝ)).map (fun r => r.1.toList) := by
  simp only [ellipsoidChoices, models, List.map_cons, List.map_nil]
  decide

/-- **C55.** Every choice offered for `--ellipsoid` is accepted and is the tabulated ellipsoid of that name (the offered names
are lower case; so are the keys); every other word exits with status 2; without the option it is WGS84. -/
theorem cliEllipsoid_spec :
    (∀ name ∈ (models (F := ℝ)).map Prod.fst, cliEllipsoid (F := ℝ) (some name.toList) = Ellipsoid.fromName name ∧
      ∃ e : Ellipsoid ℝ, Ellipsoid.fromName name = .ok e) ∧
    (∀ w : Text, String.ofList w ∉ (models (F := ℝ)).map Prod.fst → cliEllipsoid (F := ℝ) (some w) = .error (.systemExit 2)) ∧
    cliEllipsoid (F := ℝ) none = .ok wgs84 := by
  have hmem : ∀ w : Text, w ∈ ellipsoidChoices ℝ ↔ String.ofList w ∈ (models (F := ℝ)).map Prod.fst := by
    intro w
    rw [ellipsoidChoices_eq, List.mem_map, List.mem_map]
    constructor
    · rintro ⟨r, hr, rfl⟩; exact ⟨r, hr, by simp⟩
    · rintro ⟨r, hr, h⟩; exact ⟨r, hr, by rw [h]; simp⟩
  refine ⟨?_, ?_, ?_⟩
  · intro name hn
    refine ⟨?_, (fromName_iff name).1.mpr hn⟩
    simp only [cliEllipsoid, Option.getD_some]
    rw [if_pos ((hmem _).mpr (by simpa using hn))]
    simp
  · intro w hw
    simp only [cliEllipsoid, Option.getD_some]
    rw [if_neg (fun h => hw ((hmem _).mp h))]
  · have hn : "wgs84" ∈ (models (F := ℝ)).map Prod.fst := by
      simp only [models, List.map_cons, List.map_nil]; decide
    simp only [cliEllipsoid, Option.getD_none]
    rw [if_pos ((hmem _).mpr (by simpa using hn))]
    simp only [String.ofList_toList]
    exact fromName_wgs84

/-! ## whole runs -/
section runs
variable (P : Platform ℝ)

/-- the text of a number: no comma, and `float` of the stripped text is `x` -/
def IsNumber (P : Platform ℝ) (s : Supply) (x : ℝ) : Prop :=
  ∃ t, s = .text t ∧ ',' ∉ t ∧ P.parseFloat (strip P t) = some x

theorem kwarg_number (hP : P.Sane) (ell : Ellipsoid ℝ) (given : String → Supply) (p : Param) (hne : p.name ≠ "ell")
    (hd : ∀ b, p.default ≠ some (.bool b)) (hdt : isDatetimeParam p = false) (x : ℝ) (h : IsNumber P (given p.name) x) :
    kwarg P ell given p = .ok (p.name, .num x) := by
  obtain ⟨t, h1, h2, h3⟩ := h
  rw [kwarg_text P ell given p hne hd t h1, coerce_word P hP.comma p hdt t h2, h3]; rfl

theorem cliRun_spec {α : Type} (invoke : List (String × CliVal ℝ) → Except PyErr α) (e : ExportEntry) (he : e ∈ exportTable)
    (hne : e.name ≠ "Ellipsoid") (choice : Option Text) (ell : Ellipsoid ℝ) (hell : cliEllipsoid choice = .ok ell)
    (given : String → Supply) (kws : List (String × CliVal ℝ)) (hk : callKwargs P ell given e.params = .ok kws) :
    cliRun P e.name invoke choice given = invoke kws := by
  obtain ⟨cmds, h1, h2, -⟩ := command_select
  simp only [cliRun, h1, bind, Except.bind, h2 e he hne, hell, hk]

/-- the entry for `geodetic2ecef` -/
def geodetic2ecefEntry : ExportEntry :=
  { name := "geodetic2ecef", params := [⟨"lat", false, none⟩, ⟨"lon", false, none⟩, ⟨"alt", false, none⟩,
      ⟨"ell", false, some .none⟩, ⟨"deg", false, some (.bool true)⟩] }

set_option maxRecDepth 100000 in
theorem geodetic2ecefEntry_mem : geodetic2ecefEntry ∈ exportTable := by decide

/-- **C55.** A whole run: `pymap3d --ellipsoid m geodetic2ecef LAT LON ALT [--deg|--no-deg ...]` computes
`geodetic2ecef(LAT, LON, ALT, ell=<m>, deg=<last flag, else True>)`. -/
theorem cli_geodetic2ecef (hP : P.Sane) (choice : Option Text) (ell : Ellipsoid ℝ) (hell : cliEllipsoid choice = .ok ell)
    (given : String → Supply) (lat lon alt : ℝ) (h1 : IsNumber P (given "lat") lat) (h2 : IsNumber P (given "lon") lon)
    (h3 : IsNumber P (given "alt") alt) (flags : List Bool) (h4 : given "deg" = .flags flags) :
    cliRun P "geodetic2ecef" invokeGeodetic2ecef choice given =
      .ok (geodetic2ecef lat lon alt (some ell) (flags.getLast?.getD true)) := by
  have hk : callKwargs P ell given geodetic2ecefEntry.params =
      .ok [("lat", .num lat), ("lon", .num lon), ("alt", .num alt), ("ell", .ell ell), ("deg", .bool (flags.getLast?.getD true))] := by
    rw [callKwargs_spec]
    refine .cons (kwarg_number P hP ell given _ (by decide) (by decide) (by decide) lat h1)
      (.cons (kwarg_number P hP ell given _ (by decide) (by decide) (by decide) lon h2)
        (.cons (kwarg_number P hP ell given _ (by decide) (by decide) (by decide) alt h3)
          (.cons (kwarg_ell P ell given _ rfl) (.cons (kwarg_bool P ell given _ (by decide) true rfl flags h4) .nil))))
  rw [show "geodetic2ecef" = geodetic2ecefEntry.name from rfl,
    cliRun_spec P _ _ geodetic2ecefEntry_mem (by decide) choice ell hell given _ hk]
  rfl

/-- **C55.** With the default ellipsoid the run agrees with the library call that leaves `ell` out. -/
theorem cli_geodetic2ecef_default (hP : P.Sane) (given : String → Supply) (lat lon alt : ℝ)
    (h1 : IsNumber P (given "lat") lat) (h2 : IsNumber P (given "lon") lon) (h3 : IsNumber P (given "alt") alt)
    (h4 : given "deg" = .flags []) :
    cliRun P "geodetic2ecef" invokeGeodetic2ecef none given = .ok (geodetic2ecef lat lon alt) := by
  rw [cli_geodetic2ecef P hP none wgs84 cliEllipsoid_spec.2.2 given lat lon alt h1 h2 h3 [] h4]
  rfl

/-- the entry for `nvector_distance` -/
def nvectorDistanceEntry : ExportEntry :=
  { name := "nvector_distance", params := [⟨"n1_1", false, none⟩, ⟨"n1_2", false, none⟩, ⟨"n1_3", false, none⟩,
      ⟨"n2_1", false, none⟩, ⟨"n2_2", false, none⟩, ⟨"n2_3", false, none⟩, ⟨"radius", false, some .none⟩] }

set_option maxRecDepth 100000 in
theorem nvectorDistanceEntry_mem : nvectorDistanceEntry ∈ exportTable := by decide

theorem nvectorDistance_kwargs (hP : P.Sane) (ell : Ellipsoid ℝ) (given : String → Supply) (a b c d e f : ℝ)
    (h1 : IsNumber P (given "n1_1") a) (h2 : IsNumber P (given "n1_2") b) (h3 : IsNumber P (given "n1_3") c)
    (h4 : IsNumber P (given "n2_1") d) (h5 : IsNumber P (given "n2_2") e) (h6 : IsNumber P (given "n2_3") f) (v : CliVal ℝ)
    (hv : kwarg P ell given ⟨"radius", false, some .none⟩ = .ok ("radius", v)) :
    callKwargs P ell given nvectorDistanceEntry.params = .ok [("n1_1", .num a), ("n1_2", .num b), ("n1_3", .num c),
      ("n2_1", .num d), ("n2_2", .num e), ("n2_3", .num f), ("radius", v)] := by
  rw [callKwargs_spec]
  exact .cons (kwarg_number P hP ell given _ (by decide) (by decide) (by decide) a h1)
    (.cons (kwarg_number P hP ell given _ (by decide) (by decide) (by decide) b h2)
    (.cons (kwarg_number P hP ell given _ (by decide) (by decide) (by decide) c h3)
    (.cons (kwarg_number P hP ell given _ (by decide) (by decide) (by decide) d h4)
    (.cons (kwarg_number P hP ell given _ (by decide) (by decide) (by decide) e h5)
    (.cons (kwarg_number P hP ell given _ (by decide) (by decide) (by decide) f h6) (.cons hv .nil))))))

/-- **C55 (defect).** `pymap3d nvector_distance ...` without `--radius` never works: for every ellipsoid choice and all
coordinates it raises `TypeError`, although the library call with the default radius succeeds. -/
theorem cli_nvector_distance_default_fails (hP : P.Sane) (choice : Option Text) (ell : Ellipsoid ℝ)
    (hell : cliEllipsoid choice = .ok ell) (given : String → Supply) (a b c d e f : ℝ)
    (h1 : IsNumber P (given "n1_1") a) (h2 : IsNumber P (given "n1_2") b) (h3 : IsNumber P (given "n1_3") c)
    (h4 : IsNumber P (given "n2_1") d) (h5 : IsNumber P (given "n2_2") e) (h6 : IsNumber P (given "n2_3") f)
    (h7 : given "radius" = .absent) :
    (∃ m, cliRun P "nvector_distance" invokeNvectorDistance choice given = .error (.typeError m)) ∧
      nvectorDistanceDyn (a, b, c) (d, e, f) .none = .ok (nvector_distance (a, b, c) (d, e, f)) := by
  constructor
  · refine ⟨"unsupported operand type(s) for *", ?_⟩
    rw [show "nvector_distance" = nvectorDistanceEntry.name from rfl,
      cliRun_spec P _ _ nvectorDistanceEntry_mem (by decide) choice ell hell given _
        (nvectorDistance_kwargs P hP ell given a b c d e f h1 h2 h3 h4 h5 h6 _
          (cli_none_default P ell given hP _ (by decide) (by decide) rfl h7))]
    rfl
  · rfl

/-- **C55.** With `--radius R` the command computes the library's distance. -/
theorem cli_nvector_distance (hP : P.Sane) (choice : Option Text) (ell : Ellipsoid ℝ) (hell : cliEllipsoid choice = .ok ell)
    (given : String → Supply) (a b c d e f R : ℝ)
    (h1 : IsNumber P (given "n1_1") a) (h2 : IsNumber P (given "n1_2") b) (h3 : IsNumber P (given "n1_3") c)
    (h4 : IsNumber P (given "n2_1") d) (h5 : IsNumber P (given "n2_2") e) (h6 : IsNumber P (given "n2_3") f)
    (h7 : IsNumber P (given "radius") R) :
    cliRun P "nvector_distance" invokeNvectorDistance choice given = .ok (nvector_distance (a, b, c) (d, e, f) (some R)) := by
  rw [show "nvector_distance" = nvectorDistanceEntry.name from rfl,
    cliRun_spec P _ _ nvectorDistanceEntry_mem (by decide) choice ell hell given _
      (nvectorDistance_kwargs P hP ell given a b c d e f h1 h2 h3 h4 h5 h6 _
        (kwarg_number P hP ell given _ (by decide) (by decide) (by decide) R h7))]
  rfl

/-- the same defect in the other command with `radius` -/
theorem nvectorCrossTrack_text_fails (n1 n2 np : ℝ × ℝ × ℝ) (t : Text) :
    nvectorCrossTrackDyn n1 n2 np (.text t) = .error (.typeError "unsupported operand type(s) for *") ∧
    nvectorCrossTrackDyn n1 n2 np .none = .ok (nvector_cross_track_distance n1 n2 np) := ⟨rfl, rfl⟩

/-- the entry for `nvector_cross_track_distance` -/
def nvectorCrossTrackEntry : ExportEntry :=
  { name := "nvector_cross_track_distance", params := [⟨"n1_1", false, none⟩, ⟨"n1_2", false, none⟩, ⟨"n1_3", false, none⟩,
      ⟨"n2_1", false, none⟩, ⟨"n2_2", false, none⟩, ⟨"n2_3", false, none⟩,
      ⟨"np_1", false, none⟩, ⟨"np_2", false, none⟩, ⟨"np_3", false, none⟩, ⟨"radius", false, some .none⟩] }

set_option maxRecDepth 100000 in
theorem nvectorCrossTrackEntry_mem : nvectorCrossTrackEntry ∈ exportTable := by decide

theorem nvectorCrossTrack_kwargs (hP : P.Sane) (ell : Ellipsoid ℝ) (given : String → Supply) (a b c d e f x y z : ℝ)
    (h1 : IsNumber P (given "n1_1") a) (h2 : IsNumber P (given "n1_2") b) (h3 : IsNumber P (given "n1_3") c)
    (h4 : IsNumber P (given "n2_1") d) (h5 : IsNumber P (given "n2_2") e) (h6 : IsNumber P (given "n2_3") f)
    (h7 : IsNumber P (given "np_1") x) (h8 : IsNumber P (given "np_2") y) (h9 : IsNumber P (given "np_3") z) (v : CliVal ℝ)
    (hv : kwarg P ell given ⟨"radius", false, some .none⟩ = .ok ("radius", v)) :
    callKwargs P ell given nvectorCrossTrackEntry.params = .ok [("n1_1", .num a), ("n1_2", .num b), ("n1_3", .num c),
      ("n2_1", .num d), ("n2_2", .num e), ("n2_3", .num f), ("np_1", .num x), ("np_2", .num y), ("np_3", .num z), ("radius", v)] := by
  rw [callKwargs_spec]
  exact .cons (kwarg_number P hP ell given _ (by decide) (by decide) (by decide) a h1)
    (.cons (kwarg_number P hP ell given _ (by decide) (by decide) (by decide) b h2)
    (.cons (kwarg_number P hP ell given _ (by decide) (by decide) (by decide) c h3)
    (.cons (kwarg_number P hP ell given _ (by decide) (by decide) (by decide) d h4)
    (.cons (kwarg_number P hP ell given _ (by decide) (by decide) (by decide) e h5)
    (.cons (kwarg_number P hP ell given _ (by decide) (by decide) (by decide) f h6)
    (.cons (kwarg_number P hP ell given _ (by decide) (by decide) (by decide) x h7)
    (.cons (kwarg_number P hP ell given _ (by decide) (by decide) (by decide) y h8)
    (.cons (kwarg_number P hP ell given _ (by decide) (by decide) (by decide) z h9) (.cons hv .nil)))))))))

/-- **C55.** `pymap3d nvector_cross_track_distance ...`: with `--radius R` the library's distance; without it (defect) `TypeError`, although the library call with
the default radius succeeds. -/
theorem cli_nvector_cross_track (hP : P.Sane) (choice : Option Text) (ell : Ellipsoid ℝ) (hell : cliEllipsoid choice = .ok ell)
    (given : String → Supply) (a b c d e f x y z : ℝ)
    (h1 : IsNumber P (given "n1_1") a) (h2 : IsNumber P (given "n1_2") b) (h3 : IsNumber P (given "n1_3") c)
    (h4 : IsNumber P (given "n2_1") d) (h5 : IsNumber P (given "n2_2") e) (h6 : IsNumber P (given "n2_3") f)
    (h7 : IsNumber P (given "np_1") x) (h8 : IsNumber P (given "np_2") y) (h9 : IsNumber P (given "np_3") z) :
    (∀ R, IsNumber P (given "radius") R → cliRun P "nvector_cross_track_distance" invokeNvectorCrossTrack choice given =
      .ok (nvector_cross_track_distance (a, b, c) (d, e, f) (x, y, z) (some R))) ∧
    (given "radius" = .absent →
      (∃ m, cliRun P "nvector_cross_track_distance" invokeNvectorCrossTrack choice given = .error (.typeError m)) ∧
      nvectorCrossTrackDyn (a, b, c) (d, e, f) (x, y, z) .none = .ok (nvector_cross_track_distance (a, b, c) (d, e, f) (x, y, z))) := by
  constructor
  · intro R h10
    rw [show "nvector_cross_track_distance" = nvectorCrossTrackEntry.name from rfl,
      cliRun_spec P _ _ nvectorCrossTrackEntry_mem (by decide) choice ell hell given _
        (nvectorCrossTrack_kwargs P hP ell given a b c d e f x y z h1 h2 h3 h4 h5 h6 h7 h8 h9 _
          (kwarg_number P hP ell given _ (by decide) (by decide) (by decide) R h10))]
    rfl
  · intro h10
    refine ⟨⟨"unsupported operand type(s) for *", ?_⟩, rfl⟩
    rw [show "nvector_cross_track_distance" = nvectorCrossTrackEntry.name from rfl,
      cliRun_spec P _ _ nvectorCrossTrackEntry_mem (by decide) choice ell hell given _
        (nvectorCrossTrack_kwargs P hP ell given a b c d e f x y z h1 h2 h3 h4 h5 h6 h7 h8 h9 _
          (cli_none_default P ell given hP _ (by decide) (by decide) rfl h10))]
    rfl

end runs

/-! ## a platform meeting the assumptions -/

/-- white space is the blank; numbers are decimal digit strings with `0.0` for zero -/
noncomputable def toyPlatform : Platform ℝ where
  isSpace c := decide (c = ' ')
  parseFloat t := if t = "0.0".toList ∨ t = ['0'] then some 0 else if t = "12".toList then some 12 else none
  showFloat _ := "0.0".toList
  fromiso _ := .error (.valueError "no")

theorem toyPlatform_sane : toyPlatform.Sane := by
  constructor
  · decide
  · decide
  · simp [toyPlatform]
  · simp [toyPlatform]
  · simp [toyPlatform]
  · decide
  · decide
  · simp only [toyPlatform, true_or, if_true]; norm_num
  · decide
  · simp only [toyPlatform, or_true, if_true]; norm_num

/-- the hypotheses of the run theorems are met by a real command line -/
example : ∃ given : String → Supply, IsNumber toyPlatform (given "lat") 12 ∧ IsNumber toyPlatform (given "lon") 12 ∧
    IsNumber toyPlatform (given "alt") 0 ∧ given "deg" = .flags [] ∧ given "radius" = .absent := by
  have h12 : strip toyPlatform " 12".toList = "12".toList := by decide
  refine ⟨fun n => if n = "deg" then .flags [] else if n = "radius" then .absent else if n = "alt" then .text "0".toList
    else .text " 12".toList, ⟨" 12".toList, rfl, by decide, ?_⟩, ⟨" 12".toList, rfl, by decide, ?_⟩,
    ⟨"0".toList, rfl, by decide, ?_⟩, rfl, rfl⟩
  · rw [h12]; simp [toyPlatform]
  · rw [h12]; simp [toyPlatform]
  · rw [show strip toyPlatform "0".toList = ['0'] by decide]; simp [toyPlatform]

/-! ## output -/
section json
variable {F : Type} (iso : DateTime → Text)

/-- the leaves of a result: what the user sees, tuples and lists flattened -/
inductive Leaf (F : Type)
  | num (x : F)
  | str (s : Text)
  | dt (d : DateTime)
  | array (s : List Nat) (d : List F)

mutual
def leaves : OutVal F → List (Leaf F)
  | .num x => [.num x]
  | .str s => [.str s]
  | .dt d => [.dt d]
  | .array s d => [.array s d]
  | .tuple l => leavesList l
  | .list l => leavesList l
def leavesList : List (OutVal F) → List (Leaf F)
  | [] => []
  | v :: vs => leaves v ++ leavesList vs
end

/-- dates as text -/
def Leaf.dated (iso : DateTime → Text) : Leaf F → Leaf F
  | .dt d => .str (iso d)
  | l => l

mutual
theorem leaves_toJsonable : ∀ v : OutVal F, leaves (toJsonable iso v) = (leaves v).map (Leaf.dated iso)
  | .num x => rfl
  | .str s => rfl
  | .dt d => rfl
  | .array s d => rfl
  | .tuple l => by rw [toJsonable, leaves, leaves]; exact leavesList_toJsonable l
  | .list l => by rw [toJsonable, leaves, leaves]; exact leavesList_toJsonable l
theorem leavesList_toJsonable : ∀ l : List (OutVal F), leavesList (toJsonableList iso l) = (leavesList l).map (Leaf.dated iso)
  | [] => rfl
  | v :: vs => by rw [toJsonableList, leavesList, leavesList, List.map_append, leaves_toJsonable v, leavesList_toJsonable vs]
end

mutual
theorem jsonOk_toJsonable : ∀ v : OutVal F, jsonOk (toJsonable iso v) = true ↔ ∀ s d, Leaf.array s d ∉ leaves v
  | .num x => by simp [toJsonable, jsonOk, leaves]
  | .str s => by simp [toJsonable, jsonOk, leaves]
  | .dt d => by simp [toJsonable, jsonOk, leaves]
  | .array s d => by
    simp only [toJsonable, jsonOk, leaves, List.mem_singleton, Bool.false_eq_true, false_iff]
    intro h; exact h s d rfl
  | .tuple l => by rw [toJsonable, jsonOk, leaves]; exact jsonOkList_toJsonable l
  | .list l => by rw [toJsonable, jsonOk, leaves]; exact jsonOkList_toJsonable l
theorem jsonOkList_toJsonable : ∀ l : List (OutVal F), jsonOkList (toJsonableList iso l) = true ↔
    ∀ s d, Leaf.array s d ∉ leavesList l
  | [] => by simp [toJsonableList, jsonOkList, leavesList]
  | v :: vs => by
    rw [toJsonableList, jsonOkList, Bool.and_eq_true, jsonOk_toJsonable v, jsonOkList_toJsonable vs]
    simp only [leavesList, List.mem_append, not_or]
    exact ⟨fun h s d => ⟨h.1 s d, h.2 s d⟩, fun h => ⟨fun s d => (h s d).1, fun s d => (h s d).2⟩⟩
end

mutual
theorem jsonOk_raw : ∀ v : OutVal F, jsonOk v = true ↔ ∀ l ∈ leaves v, (∃ x, l = Leaf.num x) ∨ ∃ s, l = Leaf.str s
  | .num x => by simp [jsonOk, leaves]
  | .str s => by simp [jsonOk, leaves]
  | .dt d => by simp [jsonOk, leaves]
  | .array s d => by simp [jsonOk, leaves]
  | .tuple l => by rw [jsonOk, leaves]; exact jsonOkList_raw l
  | .list l => by rw [jsonOk, leaves]; exact jsonOkList_raw l
theorem jsonOkList_raw : ∀ l : List (OutVal F), jsonOkList l = true ↔
    ∀ x ∈ leavesList l, (∃ y, x = Leaf.num y) ∨ ∃ s, x = Leaf.str s
  | [] => by simp [jsonOkList, leavesList]
  | v :: vs => by
    rw [jsonOkList, Bool.and_eq_true, jsonOk_raw v, jsonOkList_raw vs]
    simp only [leavesList, List.mem_append]
    exact ⟨fun h x hx => hx.elim (h.1 x) (h.2 x), fun h => ⟨fun x hx => h x (Or.inl hx), fun x hx => h x (Or.inr hx)⟩⟩
end

mutual
theorem toJsonable_idem : ∀ v : OutVal F, toJsonable iso (toJsonable iso v) = toJsonable iso v
  | .num x => rfl
  | .str s => rfl
  | .dt d => rfl
  | .array s d => rfl
  | .tuple l => by rw [toJsonable, toJsonable, toJsonableList_idem l]
  | .list l => by rw [toJsonable, toJsonable, toJsonableList_idem l]
theorem toJsonableList_idem : ∀ l : List (OutVal F), toJsonableList iso (toJsonableList iso l) = toJsonableList iso l
  | [] => rfl
  | v :: vs => by rw [toJsonableList, toJsonableList, toJsonable_idem v, toJsonableList_idem vs]
end

/-- **C55.** `--output json`: the printed structure has the same numbers and texts in the same order (dates as ISO text), at any
nesting; printing succeeds exactly when no numpy array occurs in the result, in particular for results made of numbers,
tuples, lists and dates; with an array (as when comma lists were given) `json.dumps` raises `TypeError`. -/
theorem json_output (v : OutVal F) :
    leaves (toJsonable iso v) = (leaves v).map (Leaf.dated iso) ∧
    (jsonOk (toJsonable iso v) = true ↔ ∀ s d, Leaf.array s d ∉ leaves v) ∧
    toJsonable iso (toJsonable iso v) = toJsonable iso v :=
  ⟨leaves_toJsonable iso v, jsonOk_toJsonable iso v, toJsonable_idem iso v⟩

/-- **C55.** The conversion of dates is what makes printing possible: without it `json.dumps` accepts exactly the results made
of numbers and texts, and refuses every result with a date in it. -/
theorem json_needs_conversion (v : OutVal F) :
    (jsonOk v = true ↔ ∀ l ∈ leaves v, (∃ x, l = Leaf.num x) ∨ ∃ s, l = Leaf.str s) ∧
    ((∃ d, Leaf.dt d ∈ leaves v) → jsonOk v = false) := by
  refine ⟨jsonOk_raw v, fun ⟨d, hd⟩ => ?_⟩
  cases h : jsonOk v with
  | false => rfl
  | true =>
    rcases (jsonOk_raw v).1 h _ hd with ⟨x, hx⟩ | ⟨s, hs⟩
    · cases hx
    · cases hs

end json

end Pymap3d
