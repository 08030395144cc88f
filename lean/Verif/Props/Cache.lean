import Verif.Model.EllipsoidCache
import Verif.Props.Radii
/-!
C17 (named-ellipsoid cache), C18 (geodesic cache), C61 (geodesic cache under threads)
-/
set_option linter.unusedSectionVars false
namespace Pymap3d
open Py

variable {F : Type} [Add F] [Sub F] [Mul F] [Div F] [Neg F] [Pow F Nat] [OfScientific F] [LT F] [LE F]
  [DecidableLT F] [DecidableLE F] [PyMath F] [DecidableEq F]

/-- an operation that does not assign to fields of an existing object -/
def Op.Pure : Op F → Prop
  | .mutate _ _ => False
  | _ => True

/-- every cached name refers to an existing object -/
def World.WF (w : World F) : Prop := ∀ nm r, w.names.lookup nm = some r → r < w.heap.length

/-- every cached name refers to an object equal to the table entry -/
def World.Clean (w : World F) : Prop :=
  ∀ nm r, w.names.lookup nm = some r → ∃ e, w.heap[r]? = some e ∧ Ellipsoid.fromName nm = .ok e

/-- the geodesic cache maps every key to a solver built from that key -/
def World.GeoOK (w : World F) : Prop := ∀ k s, w.geos.lookup k = some s → s = k

theorem lookup_cons {α β : Type} [BEq α] [LawfulBEq α] [DecidableEq α] (k k' : α) (v : β) (l : List (α × β)) :
    ((k', v) :: l).lookup k = if k = k' then some v else l.lookup k := by
  simp only [List.lookup]
  by_cases h : k = k'
  · subst h; simp
  · rw [if_neg h]
    have : (k == k') = false := by simpa using h
    rw [this]

theorem fromName_heap (w : World F) (nm : String) : ∃ l, (w.fromName nm).2.heap = w.heap ++ l := by
  unfold World.fromName
  split
  · exact ⟨[], by simp⟩
  · split
    · exact ⟨[], by simp⟩
    · exact ⟨_, rfl⟩

/-- the outcome of `from_name` in terms of the heap and the cache -/
theorem fromName_cases (w : World F) (nm : String) :
    (∃ r, w.names.lookup nm = some r ∧ w.fromName nm = (.ok r, w)) ∨
    (w.names.lookup nm = none ∧ ∃ er, (Ellipsoid.fromName nm : Except PyErr (Ellipsoid F)) = .error er ∧
      w.fromName nm = (.error er, w)) ∨
    (w.names.lookup nm = none ∧ ∃ e, (Ellipsoid.fromName nm : Except PyErr (Ellipsoid F)) = .ok e ∧
      w.fromName nm = (.ok w.heap.length, { heap := w.heap ++ [e], names := (nm, w.heap.length) :: w.names, geos := w.geos })) := by
  unfold World.fromName
  cases h : w.names.lookup nm with
  | some r => exact Or.inl ⟨r, rfl, rfl⟩
  | none =>
    cases h2 : (Ellipsoid.fromName nm : Except PyErr (Ellipsoid F)) with
    | error er => exact Or.inr (Or.inl ⟨rfl, er, rfl, rfl⟩)
    | ok e => exact Or.inr (Or.inr ⟨rfl, e, rfl, rfl⟩)

/-- the outcome of a solver look-up -/
theorem getGeodesic_cases (w : World F) (ell : Option Ref) :
    (w.getGeodesic ell).2.heap = (w.resolve ell).2.heap ∧ (w.getGeodesic ell).2.names = (w.resolve ell).2.names ∧
    ((w.getGeodesic ell).2.geos = (w.resolve ell).2.geos ∨
      ∃ e : Ellipsoid F, (w.getGeodesic ell).2.geos = (geodesicOf e, geodesicOf e) :: (w.resolve ell).2.geos) := by
  unfold World.getGeodesic
  obtain ⟨r, w'⟩ := w.resolve ell
  cases r with
  | error e => exact ⟨rfl, rfl, Or.inl rfl⟩
  | ok r =>
    simp only
    cases w'.heap[r]? with
    | none => exact ⟨rfl, rfl, Or.inl rfl⟩
    | some e =>
      simp only
      cases w'.geos.lookup (e.semimajor_axis, e.flattening) with
      | some s => exact ⟨rfl, rfl, Or.inl rfl⟩
      | none => exact ⟨rfl, rfl, Or.inr ⟨e, rfl⟩⟩

theorem clean_fromName (w : World F) (h : w.Clean) (nm : String) : (w.fromName nm).2.Clean := by
  rcases fromName_cases w nm with ⟨r, -, hr⟩ | ⟨-, er, -, hr⟩ | ⟨-, e, he, hr⟩ <;> rw [hr]
  · exact h
  · exact h
  · intro nm' r' hl
    simp only [lookup_cons] at hl
    split at hl
    · rename_i heq
      obtain rfl := Option.some.inj hl
      exact ⟨e, by simp, heq ▸ he⟩
    · obtain ⟨e', h1, h2⟩ := h nm' r' hl
      refine ⟨e', ?_, h2⟩
      have hlt : r' < w.heap.length := (List.getElem?_eq_some_iff.mp h1).1
      simp only [List.getElem?_append_left hlt, h1]

theorem clean_step (w : World F) (h : w.Clean) (op : Op F) (hp : op.Pure) : (w.step op).Clean := by
  cases op with
  | fromName nm => exact clean_fromName w h nm
  | construct a b nm md f n ec =>
    simp only [World.step, World.construct]
    cases Ellipsoid.init a b nm md f n ec with
    | error e => exact h
    | ok e =>
      intro nm' r' hl
      obtain ⟨e', h1, h2⟩ := h nm' r' hl
      refine ⟨e', ?_, h2⟩
      have hlt : r' < w.heap.length := (List.getElem?_eq_some_iff.mp h1).1
      simp only [World.alloc, List.getElem?_append_left hlt, h1]
  | mutate r g => exact hp.elim
  | geodesic ell =>
    obtain ⟨h1, h2, -⟩ := getGeodesic_cases w ell
    have hc : (w.resolve ell).2.Clean := by
      cases ell with
      | none => exact clean_fromName w h "wgs84"
      | some r => exact h
    intro nm' r' hl
    simp only [World.step] at hl ⊢
    rw [h2] at hl
    rw [h1]
    exact hc nm' r' hl
  | clear => intro nm' r' hl; simp [World.step, World.clear] at hl

theorem clean_run_aux (ops : List (Op F)) : ∀ w : World F, w.Clean → (∀ op ∈ ops, op.Pure) → (ops.foldl World.step w).Clean := by
  induction ops with
  | nil => intro w h _; exact h
  | cons op ops ih =>
    intro w h hp
    exact ih _ (clean_step w h op (hp op (by simp))) (fun o ho => hp o (by simp [ho]))

/-- **C17.** after any history without field assignments, `from_name(name)` returns an object equal to the table entry for every
name of the table, and raises the table's error otherwise -/
theorem fromName_after_history (ops : List (Op F)) (hp : ∀ op ∈ ops, op.Pure) (nm : String) :
    match (Ellipsoid.fromName nm : Except PyErr (Ellipsoid F)), (World.run ops).fromName nm with
    | .ok e, (.ok r, w') => w'.heap[r]? = some e
    | .error er, (res, w') => res = .error er ∧ w' = World.run ops
    | _, _ => False := by
  have hc : (World.run ops).Clean := clean_run_aux ops World.fresh (by intro nm r h; simp [World.fresh] at h) hp
  rcases fromName_cases (World.run ops) nm with ⟨r, hl, hr⟩ | ⟨-, er, he, hr⟩ | ⟨-, e, he, hr⟩
  · obtain ⟨e, h1, h2⟩ := hc nm r hl
    rw [h2, hr]; exact h1
  · rw [he, hr]; exact ⟨rfl, rfl⟩
  · rw [he, hr]; simp

/-- **C17.** a second look-up of a name returns the identical object and changes nothing, as long as the cache is not cleared:
whatever other operations (including field assignments) happen in between -/
theorem fromName_identical (w : World F) (nm : String) (r : Ref) (h : (w.fromName nm).1 = .ok r) (ops : List (Op F))
    (hc : ∀ op ∈ ops, ∀ _ : op = Op.clear, False) :
    ((ops.foldl World.step (w.fromName nm).2).fromName nm).1 = .ok r ∧
      ((ops.foldl World.step (w.fromName nm).2).fromName nm).2 = ops.foldl World.step (w.fromName nm).2 := by
  have h0 : (w.fromName nm).2.names.lookup nm = some r := by
    rcases fromName_cases w nm with ⟨r', hl, hr⟩ | ⟨-, er, -, hr⟩ | ⟨-, e, -, hr⟩ <;> rw [hr] at h ⊢
    · obtain rfl := Except.ok.inj h; exact hl
    · cases h
    · obtain rfl := Except.ok.inj h; simp
  have keep : ∀ (w : World F) (op : Op F), (∀ _ : op = Op.clear, False) → w.names.lookup nm = some r →
      (w.step op).names.lookup nm = some r := by
    intro w op hop hl
    have hfn : ∀ nm', (w.fromName nm').2.names.lookup nm = some r := by
      intro nm'
      rcases fromName_cases w nm' with ⟨r', -, hr⟩ | ⟨-, er, -, hr⟩ | ⟨hn, e, -, hr⟩ <;> rw [hr]
      · exact hl
      · exact hl
      · simp only [lookup_cons]
        split
        · rename_i heq; rw [heq] at hl; rw [hl] at hn; cases hn
        · exact hl
    cases op with
    | fromName nm' => exact hfn nm'
    | construct a b n1 md f n ec =>
      simp only [World.step, World.construct]
      cases Ellipsoid.init a b n1 md f n ec <;> exact hl
    | mutate r' g => exact hl
    | geodesic ell =>
      simp only [World.step]
      rw [(getGeodesic_cases w ell).2.1]
      cases ell with
      | none => exact hfn "wgs84"
      | some r' => exact hl
    | clear => exact (hop rfl).elim
  have hall : ∀ (ops : List (Op F)) (w : World F), (∀ op ∈ ops, ∀ _ : op = Op.clear, False) → w.names.lookup nm = some r →
      (ops.foldl World.step w).names.lookup nm = some r := by
    intro ops
    induction ops with
    | nil => intro w _ hl; exact hl
    | cons op ops ih => intro w hc hl; exact ih _ (fun o ho => hc o (by simp [ho])) (keep w op (hc op (by simp)) hl)
  have := hall ops _ hc h0
  unfold World.fromName
  unfold World.fromName at this
  rw [this]
  exact ⟨rfl, rfl⟩

/-- **C17.** clearing the caches restores the table values whatever happened before (including field assignments) -/
theorem fromName_after_clear (ops : List (Op F)) (nm : String) (e : Ellipsoid F) (he : Ellipsoid.fromName nm = .ok e) :
    ∃ r, ((World.run ops).clear.fromName nm).1 = .ok r ∧ ((World.run ops).clear.fromName nm).2.heap[r]? = some e := by
  rcases fromName_cases (World.run ops).clear nm with ⟨r, hl, -⟩ | ⟨-, er, h2, -⟩ | ⟨-, e', h2, hr⟩
  · simp [World.clear] at hl
  · rw [he] at h2; cases h2
  · rw [he] at h2
    obtain rfl := Except.ok.inj h2
    exact ⟨_, by rw [hr], by rw [hr]; simp⟩

/-- **C17.** (shared mutable singleton) if a program assigns to a field of a named ellipsoid, every later `from_name` of that name,
hence for `"wgs84"` every default-ellipsoid call, sees the modified object until the caches are cleared -/
theorem fromName_mutated (w : World F) (nm : String) (r : Ref) (h : (w.fromName nm).1 = .ok r) (g : Ellipsoid F → Ellipsoid F) :
    let w1 := (w.fromName nm).2
    let w2 := w1.mutate r g
    (w2.fromName nm).1 = .ok r ∧ ∀ e, w1.heap[r]? = some e → (w2.fromName nm).2.heap[r]? = some (g e) := by
  intro w1 w2
  have := fromName_identical w nm r h [Op.mutate r g] (by simp)
  simp only [List.foldl, World.step] at this
  refine ⟨this.1, fun e he => ?_⟩
  show ((w1.mutate r g).fromName nm).2.heap[r]? = some (g e)
  rw [this.2]
  simp only [World.mutate, List.getElem?_modify_eq]
  rw [show (w.fromName nm).2.heap[r]? = some e from he]
  rfl

/-! ### C18 -/

theorem geoOK_step (w : World F) (h : w.GeoOK) (op : Op F) : (w.step op).GeoOK := by
  have hfn : ∀ nm, (w.fromName nm).2.geos = w.geos := by
    intro nm
    rcases fromName_cases w nm with ⟨r', -, hr⟩ | ⟨-, er, -, hr⟩ | ⟨hn, e, -, hr⟩ <;> rw [hr]
  cases op with
  | fromName nm => intro k s hl; simp only [World.step] at hl; rw [hfn] at hl; exact h k s hl
  | construct a b n1 md f n ec =>
    simp only [World.step, World.construct]
    cases Ellipsoid.init a b n1 md f n ec <;> exact h
  | mutate r g => exact h
  | geodesic ell =>
    have hres : (w.resolve ell).2.geos = w.geos := by
      cases ell with
      | none => exact hfn "wgs84"
      | some r => rfl
    intro k s hl
    simp only [World.step] at hl
    rcases (getGeodesic_cases w ell).2.2 with hg | ⟨e, hg⟩
    · rw [hg, hres] at hl; exact h k s hl
    · rw [hg, hres, lookup_cons] at hl
      split at hl
      · rename_i heq; rw [heq]; exact (Option.some.inj hl).symm
      · exact h k s hl
  | clear => intro k s hl; simp [World.step, World.clear] at hl

theorem geoOK_run (ops : List (Op F)) : (World.run ops).GeoOK := by
  have : ∀ (ops : List (Op F)) (w : World F), w.GeoOK → (ops.foldl World.step w).GeoOK := by
    intro ops
    induction ops with
    | nil => intro w h; exact h
    | cons op ops ih => intro w h; exact ih _ (geoOK_step w h op)
  exact this ops World.fresh (by intro k s h; simp [World.fresh] at h)

/-- **C18.** after any history whatsoever (look-ups, constructions, field assignments, clears) the solver handed out for an
ellipsoid object is the one built from its current semi-major axis and flattening -/
theorem getGeodesic_current (ops : List (Op F)) (r : Ref) (e : Ellipsoid F) (he : (World.run ops).heap[r]? = some e) :
    ((World.run ops).getGeodesic (some r)).1 = .ok (some (e.semimajor_axis, e.flattening)) := by
  have hg := geoOK_run ops
  simp only [World.getGeodesic, World.resolve, he]
  cases hl : (World.run ops).geos.lookup (e.semimajor_axis, e.flattening) with
  | none => rfl
  | some s => simp only; rw [hg _ _ hl]

/-- **C18.** and for the default ellipsoid, after any history without field assignments, the one of WGS84 -/
theorem getGeodesic_default (ops : List (Op F)) (hp : ∀ op ∈ ops, op.Pure) (e : Ellipsoid F)
    (he : Ellipsoid.fromName "wgs84" = .ok e) :
    ((World.run ops).getGeodesic none).1 = .ok (some (e.semimajor_axis, e.flattening)) := by
  have h := fromName_after_history ops hp "wgs84"
  rw [he] at h
  have hg : ((World.run ops).fromName "wgs84").2.GeoOK := geoOK_step _ (geoOK_run ops) (.fromName "wgs84")
  unfold World.getGeodesic World.resolve
  generalize hq : (World.run ops).fromName "wgs84" = q at *
  obtain ⟨res, w'⟩ := q
  cases res with
  | error er => exact h.elim
  | ok r =>
    simp only at h hg ⊢
    rw [h]
    simp only
    cases hl : w'.geos.lookup (e.semimajor_axis, e.flattening) with
    | none => rfl
    | some s => simp only; rw [hg _ _ hl]

/-! ### C61: threads -/

/-- a schedule that contains no field assignment -/
def MOp.Pure : MOp F → Prop
  | .mutate _ _ => False
  | _ => True

/-- the invariant of executions without field assignments -/
def MInv (w : MWorld F) : Prop :=
  (∀ k s, w.geos.lookup k = some s → s = k) ∧
  ∀ pc ∈ w.threads, match pc with
    | .start _ => True
    | .keyed r k => ∃ e, w.heap[r]? = some e ∧ k = geodesicOf e
    | .missed r k => ∃ e, w.heap[r]? = some e ∧ k = geodesicOf e
    | .built r k s => ∃ e, w.heap[r]? = some e ∧ k = geodesicOf e ∧ s = geodesicOf e
    | .done r s => ∃ e, w.heap[r]? = some e ∧ s = geodesicOf e

theorem minv_step (w : MWorld F) (h : MInv w) (op : MOp F) (hp : op.Pure) : MInv (w.step op) ∧ (w.step op).heap = w.heap := by
  obtain ⟨hg, ht⟩ := h
  cases op with
  | mutate r g => exact hp.elim
  | clear => exact ⟨⟨by intro k s h; simp [MWorld.step] at h, ht⟩, rfl⟩
  | spawn r =>
    refine ⟨⟨hg, ?_⟩, rfl⟩
    intro pc hpc
    simp only [MWorld.step, List.mem_append, List.mem_singleton] at hpc
    rcases hpc with hpc | rfl
    · exact ht pc hpc
    · trivial
  | run t =>
    simp only [MWorld.step]
    cases hpc : w.threads[t]? with
    | none => exact ⟨⟨hg, ht⟩, rfl⟩
    | some pc =>
      have hmem : pc ∈ w.threads := List.mem_of_getElem? hpc
      have hinv := ht pc hmem
      have upd : ∀ pc' : Pc F, (match pc' with
          | .start _ => True
          | .keyed r k => ∃ e, w.heap[r]? = some e ∧ k = geodesicOf e
          | .missed r k => ∃ e, w.heap[r]? = some e ∧ k = geodesicOf e
          | .built r k s => ∃ e, w.heap[r]? = some e ∧ k = geodesicOf e ∧ s = geodesicOf e
          | .done r s => ∃ e, w.heap[r]? = some e ∧ s = geodesicOf e) →
          ∀ geos', (∀ k s, geos'.lookup k = some s → s = k) →
          MInv { w with geos := geos', threads := w.threads.set t pc' } := by
        intro pc' h1 geos' h2
        refine ⟨h2, fun q hq => ?_⟩
        rcases List.mem_or_eq_of_mem_set hq with hq | rfl
        · exact ht q hq
        · exact h1
      cases pc with
      | start r =>
        simp only [stepThread]
        cases he : w.heap[r]? with
        | none => exact ⟨⟨hg, ht⟩, rfl⟩
        | some e => exact ⟨upd (.keyed r _) ⟨e, he, rfl⟩ _ hg, rfl⟩
      | keyed r k =>
        simp only [stepThread]
        obtain ⟨e, he, hk⟩ := hinv
        cases hl : w.geos.lookup k with
        | none => exact ⟨upd (.missed r k) ⟨e, he, hk⟩ _ hg, trivial⟩
        | some s => exact ⟨upd (.done r s) ⟨e, he, (hg k s hl).trans hk⟩ _ hg, trivial⟩
      | missed r k =>
        simp only [stepThread]
        obtain ⟨e, he, hk⟩ := hinv
        rw [he]
        exact ⟨upd (.built r k (geodesicOf e)) ⟨e, he, hk, rfl⟩ _ hg, rfl⟩
      | built r k s =>
        simp only [stepThread]
        obtain ⟨e, he, hk, hs⟩ := hinv
        refine ⟨upd (.done r s) ⟨e, he, hs⟩ _ ?_, trivial⟩
        intro k' s' hl
        rw [lookup_cons] at hl
        split at hl
        · rename_i heq; rw [heq, ← Option.some.inj hl, hs, hk]
        · exact hg k' s' hl
      | done r s => exact ⟨⟨hg, ht⟩, rfl⟩

/-- **C61.** for every number of threads and every interleaving of their look-ups (and of cache clears), as long as nobody assigns
to ellipsoid fields, each finished look-up returned the solver of its own ellipsoid -/
theorem geodesic_cache_threads (heap : List (Ellipsoid F)) (sched : List (MOp F)) (hp : ∀ op ∈ sched, op.Pure) (r : Ref) (s : F × F)
    (hd : Pc.done r s ∈ (sched.foldl MWorld.step ⟨heap, [], []⟩).threads) :
    ∃ e, heap[r]? = some e ∧ s = (e.semimajor_axis, e.flattening) := by
  have : ∀ (sched : List (MOp F)) (w : MWorld F), MInv w → (∀ op ∈ sched, op.Pure) →
      MInv (sched.foldl MWorld.step w) ∧ (sched.foldl MWorld.step w).heap = w.heap := by
    intro sched
    induction sched with
    | nil => intro w h _; exact ⟨h, rfl⟩
    | cons op ops ih =>
      intro w h hp
      obtain ⟨h1, h2⟩ := minv_step w h op (hp op (by simp))
      obtain ⟨h3, h4⟩ := ih _ h1 (fun o ho => hp o (by simp [ho]))
      exact ⟨h3, h4.trans h2⟩
  obtain ⟨hi, hh⟩ := this sched ⟨heap, [], []⟩ ⟨by intro k s h; simp at h, by intro pc hpc; simp at hpc⟩ hp
  have := hi.2 _ hd
  simp only at this
  rw [hh] at this
  exact this

/-- **C61.** with a field assignment between computing the key and building the solver, the cache is poisoned: a later, completely
sequential look-up for another ellipsoid that has the old values gets a solver for the new ones -/
theorem geodesic_cache_race (e1 e2 : Ellipsoid F) :
    let w0 : MWorld F := ⟨[e1, e1], [], []⟩
    let sched : List (MOp F) :=
      [.spawn 0, .run 0, .run 0, .mutate 0 (fun _ => e2), .run 0, .run 0, .spawn 1, .run 1, .run 1]
    (sched.foldl MWorld.step w0).threads = [.done 0 (geodesicOf e2), .done 1 (geodesicOf e2)] ∧
      (sched.foldl MWorld.step w0).heap[1]? = some e1 := by
  intro w0 sched
  simp [w0, sched, MWorld.step, stepThread, List.modify, List.modifyHead, geodesicOf]

/-! Non-vacuity over the reals. -/
noncomputable section

noncomputable local instance : DecidableEq ℝ := Classical.decEq ℝ

/-- WGS84 is in the table; the default solver after a look-up, a clear and a construction is that of WGS84 -/
example : ((World.run [Op.fromName "mars", Op.clear, Op.construct (2 : ℝ) 1 "x" "y" none none none]).getGeodesic none).1 =
    .ok (some ((wgs84 : Ellipsoid ℝ).semimajor_axis, (wgs84 : Ellipsoid ℝ).flattening)) :=
  getGeodesic_default _ (by intro op h; simp at h; rcases h with rfl | rfl | rfl <;> trivial) _ fromName_wgs84

/-- a program that stretches the shared WGS84 object changes every later default computation -/
example : let w1 := ((World.fresh : World ℝ).fromName "wgs84").2
    let w2 := w1.mutate 0 (fun e => { e with semimajor_axis := 7000000 })
    (w2.fromName "wgs84").1 = .ok 0 ∧
      ∀ e, w1.heap[0]? = some e → (w2.fromName "wgs84").2.heap[0]? = some { e with semimajor_axis := 7000000 } := by
  have h : ((World.fresh : World ℝ).fromName "wgs84").1 = .ok 0 := by
    simp only [World.fromName, World.fresh, List.lookup, fromName_wgs84]; rfl
  exact fromName_mutated (World.fresh : World ℝ) "wgs84" 0 h _

/-- the race is real: two ellipsoids with different axes -/
example : geodesicOf (Ellipsoid.ofArgs (2 : ℝ) 1) ≠ geodesicOf (Ellipsoid.ofArgs (3 : ℝ) 1) := by
  intro h
  have := congrArg Prod.fst h
  simp only [geodesicOf, Ellipsoid.ofArgs] at this
  norm_num at this
end

end Pymap3d
