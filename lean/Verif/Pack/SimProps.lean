import Verif.Pack.ClumpListProps
import Verif.Pack.RepeatProps
import Verif.Pack.PredLemmas

/-!
# C150 to C152: packings, simulations and files
-/
namespace Verif.Pack
open Verif.Mech
open scoped Classical

/-! ## C150: to a simulation and back -/

/-- The simulation after `O.reset()`. -/
def Sim.fresh : Sim := ⟨[], false, 1, 1⟩

theorem hasClumps_iff (l : List Sph) : hasClumps l = true ↔ ∃ s ∈ l, 0 ≤ s.clumpId := by
  simp [hasClumps]

theorem clumps_used {l : List Sph} {m : List Nat} (hm : m ∈ if hasClumps l then (getClumps l).2 else []) :
    ∃ k : Int, 0 ≤ k ∧ ∀ i, i ∈ m ↔ ∃ s, l[i]? = some s ∧ s.clumpId = k := by
  split_ifs at hm
  · exact ((C149_clumps l).2.2.1 m hm).2.2
  · simp at hm

theorem clumps_cover {l : List Sph} {i : Nat} {s : Sph} (hi : l[i]? = some s) (hs : 0 ≤ s.clumpId) :
    ∃ m ∈ (if hasClumps l then (getClumps l).2 else []), i ∈ m := by
  rw [if_pos ((hasClumps_iff l).mpr ⟨s, List.mem_of_getElem? hi, hs⟩)]
  exact (C149_clumps l).2.2.2.1 i s hi hs

theorem clumps_findIdx {l : List Sph} {i : Nat} {s : Sph} (hi : l[i]? = some s) :
    ((if hasClumps l then (getClumps l).2 else []).findIdx? (fun m => decide (i ∈ m)) = none ↔ s.clumpId < 0) := by
  rw [List.findIdx?_eq_none_iff]
  constructor
  · intro h
    by_contra hs
    obtain ⟨m, hm, him⟩ := clumps_cover hi (not_lt.mp hs)
    have := h m hm
    simp [him] at this
  · intro hs m hm
    obtain ⟨k, hk, h⟩ := clumps_used hm
    simp only [decide_eq_false_iff_not]
    intro him
    obtain ⟨s', e, e'⟩ := (h i).mp him
    rw [hi] at e
    cases e
    omega

theorem findIdx_congr {α : Type} {l : List α} {p q : α → Bool} (h : ∀ a ∈ l, p a = q a) : l.findIdx? p = l.findIdx? q := by
  induction l with
  | nil => rfl
  | cons a l ih =>
    rw [List.findIdx?_cons, List.findIdx?_cons, h a (List.mem_cons_self ..), ih fun b hb => h b (List.mem_cons_of_mem _ hb)]

theorem clumps_same {l : List Sph} {i j : Nat} {s t : Sph} (hi : l[i]? = some s) (hj : l[j]? = some t) (hs : 0 ≤ s.clumpId) :
    ((if hasClumps l then (getClumps l).2 else []).findIdx? (fun m => decide (i ∈ m)) =
      (if hasClumps l then (getClumps l).2 else []).findIdx? (fun m => decide (j ∈ m)) ↔ s.clumpId = t.clumpId) := by
  constructor
  · intro h
    rcases hx : (if hasClumps l then (getClumps l).2 else []).findIdx? (fun m => decide (i ∈ m)) with _ | x
    · rw [clumps_findIdx hi] at hx; omega
    · rw [hx] at h
      obtain ⟨hlt, h1, -⟩ := List.findIdx?_eq_some_iff_getElem.mp hx
      obtain ⟨_, h2, _⟩ := List.findIdx?_eq_some_iff_getElem.mp h.symm
      simp only [decide_eq_true_eq] at h1 h2
      obtain ⟨k, -, hk⟩ := clumps_used (List.getElem_mem hlt)
      obtain ⟨s', e, e'⟩ := (hk i).mp h1
      obtain ⟨t', f, f'⟩ := (hk j).mp h2
      rw [hi] at e; rw [hj] at f
      cases e; cases f
      rw [e', f']
  · intro h
    refine findIdx_congr fun m hm => ?_
    obtain ⟨k, -, hk⟩ := clumps_used hm
    rw [decide_eq_decide, hk, hk, hi, hj]
    simp [h]

/-- What is read of a body. -/
def readBody (b : Option SimBody) : Option Sph := b.bind fun b => b.radius.map fun r =>
  { c := b.pos, r := r, clumpId := match b.clump with | some k => (k : Int) | none => -1 }

theorem filterMap_spheres (l : List (V3 × ℝ)) (f : Nat → Option Nat) :
    (l.mapIdx fun i (p : V3 × ℝ) => some ({ pos := p.1, radius := some p.2, clump := f i } : SimBody)).filterMap readBody =
    l.mapIdx fun i p => { c := p.1, r := p.2, clumpId := match f i with | some k => (k : Int) | none => -1 } := by
  induction l generalizing f with
  | nil => rfl
  | cons p l ih =>
    rw [List.mapIdx_cons, List.mapIdx_cons, List.filterMap_cons]
    simp only [readBody, Option.bind_some, Option.map_some]
    congr 1
    exact ih fun i => f (i + 1)

theorem filterMap_fresh (place : List Nat → V3) (sp : SpherePack) (f : Nat → Option Nat) (clumps : List (List Nat)) :
    (((sp.pack.map fun (s : Sph) => ((1 : M3).mulVec s.c, s.r)).mapIdx fun i (p : V3 × ℝ) =>
      some ({ pos := p.1, radius := some p.2, clump := f i } : SimBody)) ++
      clumps.map fun m => some ({ pos := place m, radius := none } : SimBody)).filterMap readBody =
    sp.pack.mapIdx fun i s => { c := s.c, r := s.r, clumpId := match f i with | some k => (k : Int) | none => -1 } := by
  rw [List.filterMap_append]
  have e : (clumps.map fun m => some ({ pos := place m, radius := none } : SimBody)).filterMap readBody = [] := by
    rw [List.filterMap_eq_nil_iff]
    intro a ha
    obtain ⟨m, -, rfl⟩ := List.mem_map.mp ha
    rfl
  rw [e, List.append_nil, filterMap_spheres]
  apply List.ext_getElem?
  intro n
  rw [List.getElem?_mapIdx, List.getElem?_mapIdx, List.getElem?_map]
  rcases sp.pack[n]? with _ | s
  · rfl
  · simp

/-- C150.  A packing put into an empty simulation and read back has the same spheres in the same order; spheres are in no clump if they
were in none, and are in the same clump if they were. -/
theorem C150_roundtrip (place : List Nat → V3) (sp sp0 : SpherePack) :
    let sp' := fromSimulation (toSimulation place 1 sp Sim.fresh) sp0
    List.Forall₂ (fun s s' => s'.c = s.c ∧ s'.r = s.r ∧ (s'.clumpId < 0 ↔ s.clumpId < 0)) sp.pack sp'.pack ∧
    ∀ (i j : Nat) (s t s' t' : Sph), sp.pack[i]? = some s → sp.pack[j]? = some t → sp'.pack[i]? = some s' → sp'.pack[j]? = some t' →
      0 ≤ s.clumpId → (s'.clumpId = t'.clumpId ↔ s.clumpId = t.clumpId) := by
  intro sp'
  have hb : (setCell 1 sp Sim.fresh).bodies = [] := by
    rw [setCell]; split_ifs <;> rfl
  have hp : sp'.pack = sp.pack.mapIdx fun i s => { c := s.c, r := s.r, clumpId :=
      match ((if hasClumps sp.pack then (getClumps sp.pack).2 else []).findIdx? fun m => decide (i ∈ m)).map (fun x => 0 + sp.pack.length + x) with
      | some k => ((k : Nat) : Int) | none => -1 } := by
    have e : sp'.pack = (toSimulation place 1 sp Sim.fresh).bodies.filterMap readBody := by
      simp only [sp', fromSimulation]
      split_ifs <;> rfl
    rw [e]
    simp only [toSimulation, appended, hb, List.nil_append, List.length_nil, List.length_map]
    exact filterMap_fresh place sp _ _
  constructor
  · rw [hp, List.forall₂_iff_get]
    refine ⟨by simp, ?_⟩
    intro i h1 h2
    simp only [List.get_eq_getElem, List.getElem_mapIdx, true_and]
    have hi : sp.pack[i]? = some sp.pack[i] := List.getElem?_eq_getElem h1
    have := clumps_findIdx hi
    rcases hx : (if hasClumps sp.pack then (getClumps sp.pack).2 else []).findIdx? (fun m => decide (i ∈ m)) with _ | x
    · rw [hx] at this
      simp only [Option.map_none]
      have := this.mp rfl
      omega
    · rw [hx] at this
      simp only [Option.map_some]
      have : ¬ sp.pack[i].clumpId < 0 := fun h => by have := this.mpr h; cases this
      omega
  · intro i j s t s' t' hi hj hi' hj' hs
    rw [hp, List.getElem?_mapIdx, hi, Option.map_some, Option.some.injEq] at hi'
    rw [hp, List.getElem?_mapIdx, hj, Option.map_some, Option.some.injEq] at hj'
    rw [← hi', ← hj', ← clumps_same hi hj hs]
    simp only
    have hn := clumps_findIdx hi
    generalize (if hasClumps sp.pack then (getClumps sp.pack).2 else []).findIdx? (fun m => decide (i ∈ m)) = a at *
    generalize (if hasClumps sp.pack then (getClumps sp.pack).2 else []).findIdx? (fun m => decide (j ∈ m)) = b at *
    rcases a with _ | a
    · have := hn.mp rfl; omega
    rcases b with _ | b
    · simp only [Option.map_some, Option.map_none]
      constructor
      · intro h; exfalso; omega
      · intro h; cases h
    · simp only [Option.map_some, Option.some.injEq]
      constructor
      · intro h; omega
      · intro h; rw [h]

/-! ## C151: the cell -/

/-- The packing says the same about its periodicity in both ways: it has a cell exactly if it was made in one. -/
def Consistent (sp : SpherePack) : Prop := sp.isPeriodic = true ↔ sp.cellSize ≠ 0

/-- The place of the image of `x` shifted by `z` cells in a simulation. -/
def simImage (sim : Sim) (x : V3) (z : Fin 3 → ℤ) : V3 := x + sim.hSize.mulVec fun a => (z a : ℝ)

/-- The place of the image of `x` shifted by `z` cells in a packing. -/
def packImage (cell : V3) (x : V3) (z : Fin 3 → ℤ) : V3 := fun a => x a + cell a * z a

/-- C151.  A packing with a consistent statement about its cell makes a fresh simulation periodic exactly if it has a cell, and the images
of spheres are those of the packing, turned.  Missing: packings that are not consistent, see the violations. -/
theorem C151_cell_partial (place : List Nat → V3) (rot : M3) {sp : SpherePack} (h : Consistent sp) :
    let sim := toSimulation place rot sp Sim.fresh
    (sim.periodic = true ↔ sp.cellSize ≠ 0) ∧
    (sp.cellSize ≠ 0 → sim.trsf = 1 ∧ ∀ x z, simImage sim (rot.mulVec x) z = rot.mulVec (packImage sp.cellSize x z)) := by
  intro sim
  have e1 : sim.periodic = (setCell rot sp Sim.fresh).periodic := rfl
  have e2 : sim.hSize = (setCell rot sp Sim.fresh).hSize := rfl
  have e3 : sim.trsf = (setCell rot sp Sim.fresh).trsf := rfl
  constructor
  · rw [e1, ← Iff.intro h.1 h.2, setCell]
    by_cases hp : sp.isPeriodic = true
    · simp only [hp, if_true, and_true]
      split_ifs <;> simp
    · simp [hp, Sim.fresh]
  · intro hc
    have hp := h.mpr hc
    rw [e3]
    constructor
    · rw [setCell, if_pos ⟨hc, hp⟩]
    · intro x z
      rw [simImage, e2, setCell, if_pos ⟨hc, hp⟩]
      simp only
      rw [← Matrix.mulVec_mulVec, ← Matrix.mulVec_add]
      congr 1
      funext a
      simp [packImage, Matrix.mulVec_diagonal]

/-- C151.  Moving, scaling by a factor that is not zero, and repeating keep packings consistent; a periodic one scaled has the images of the
one before, scaled; a packing put into a fresh simulation and read back into an empty one is consistent, with the same cell if the
sizes are not negative. -/
theorem C151_kept {sp : SpherePack} (h : Consistent sp) :
    (∀ v, Consistent (translate v sp)) ∧ (∀ k, k ≠ 0 → Consistent (scale k sp)) ∧
    (∀ count sp', (∀ a, sp.cellSize a ≠ 0) → cellRepeat count sp = .ok sp' → Consistent sp') ∧
    (∀ k x z, packImage (scale k sp).cellSize (k • (x - midPt sp.pack) + midPt sp.pack) z =
      k • (packImage sp.cellSize x z - midPt sp.pack) + midPt sp.pack) ∧
    ∀ place, (∀ a, 0 ≤ sp.cellSize a) →
      let sp' := fromSimulation (toSimulation place 1 sp Sim.fresh) SpherePack.empty
      Consistent sp' ∧ sp'.cellSize = sp.cellSize := by
  refine ⟨fun v => h, ?_, ?_, ?_, ?_⟩
  · intro k hk
    rw [Consistent, scale]
    simp only [ne_eq, smul_eq_zero, hk, false_or]
    exact h
  · intro count sp' hc hr
    obtain ⟨h0, hp, hcell, hper, -⟩ := cellRepeat_eq hr
    rw [Consistent, hper, Iff.intro h.1 h.2]
    constructor
    · intro _ h'
      have := congrFun h' 0
      rw [hcell] at this
      have hcount : ((count 0 : ℤ) : ℝ) ≠ 0 := by exact_mod_cast (hp 0).ne'
      exact mul_ne_zero (hc 0) hcount this
    · intro _; exact h0
  · intro k x z
    funext a
    simp only [packImage, scale, Pi.add_apply, Pi.smul_apply, Pi.sub_apply, smul_eq_mul]
    ring
  · intro place hpos sp'
    by_cases hp : sp.isPeriodic = true
    · have hc := h.mp hp
      have e : sp'.cellSize = cellLengths (Matrix.diagonal sp.cellSize) ∧ sp'.isPeriodic = true := by
        simp only [sp', fromSimulation, toSimulation, setCell, hp, hc, ne_eq, not_false_eq_true, and_self, if_true, one_mul]
      have el : cellLengths (Matrix.diagonal sp.cellSize) = sp.cellSize := by
        funext j
        have : sqNorm (fun i => Matrix.diagonal sp.cellSize i j) = sp.cellSize j ^ 2 := by
          fin_cases j <;> simp [sqNorm, dot, Matrix.diagonal] <;> ring
        rw [cellLengths, norm3, this, Real.sqrt_sq (hpos j)]
      refine ⟨?_, by rw [e.1, el]⟩
      rw [Consistent, e.1, e.2, el]
      simp [hc]
    · have hc : sp.cellSize = 0 := by by_contra hc; exact hp (h.mpr hc)
      have e : sp' = { SpherePack.empty with pack := sp'.pack } := by
        simp [sp', fromSimulation, toSimulation, setCell, hp, Sim.fresh, SpherePack.empty]
      rw [e, hc]
      simp [Consistent, SpherePack.empty]

/-- A consistent packing in a cell of size 1 by 2 by 3. -/
example : Consistent ⟨[{ c := 0, r := 0.1 }], ![1, 2, 3], 1, true⟩ := by
  simp [Consistent]

/-- C151 is violated by turned packings: they have no cell any more but still make the simulation periodic, in the cell that it happens to
have. -/
theorem C151_violated_rotate (place : List Nat → V3) : ∃ sp : SpherePack, Consistent sp ∧
    (rotate ![0, 0, 1] 1 sp).cellSize = 0 ∧ (toSimulation place 1 (rotate ![0, 0, 1] 1 sp) Sim.fresh).periodic = true ∧
    (toSimulation place 1 (rotate ![0, 0, 1] 1 sp) Sim.fresh).hSize = 1 := by
  refine ⟨⟨[{ c := 0, r := 0.1 }], ![5, 5, 5], 1, true⟩, by simp [Consistent], rfl, ?_, ?_⟩ <;>
    simp [toSimulation, setCell, rotate, Sim.fresh]

/-- C151 is violated by reading a simulation without a cell into a packing that has one: it stays periodic. -/
theorem C151_violated_fromSimulation : ∃ sp : SpherePack, Consistent sp ∧
    (fromSimulation Sim.fresh sp).isPeriodic = true ∧ (fromSimulation Sim.fresh sp).cellSize ≠ 0 := by
  refine ⟨⟨[], ![5, 5, 5], 1, true⟩, by simp [Consistent], ?_, ?_⟩ <;> simp [fromSimulation, Sim.fresh]

/-- C151 is violated by packings made from a list: whether they are periodic is whatever was in memory. -/
theorem C151_violated_list (place : List Nat → V3) (l : List Sph) : ∃ garbage,
    (toSimulation place 1 (ofList garbage l) Sim.fresh).periodic = true := by
  refine ⟨(0, true), ?_⟩
  simp [toSimulation, setCell, ofList]

/-! ## C152: files -/

theorem loadLines_spheres (l : List Sph) (cell : V3) (id : Int) (acc : List Sph) :
    loadLines (l.map fun s => .columns [s.c 0, s.c 1, s.c 2, s.r, s.clumpId]) cell id acc = .ok (cell, acc ++ l) := by
  induction l generalizing id acc with
  | nil => simp [loadLines]
  | cons s l ih =>
    rw [List.map_cons, loadLines]
    simp only [Int.floor_intCast, if_true]
    rw [ih]
    have : (![s.c 0, s.c 1, s.c 2] : V3) = s.c := by funext i; fin_cases i <;> rfl
    rw [this]
    simp

/-- C152.  A packing that is saved and loaded again has the same spheres with the same clumps, whatever was in the packing it is loaded
into, and the same cell if it has one or the other has none.  Missing: cells of earlier data and the mark of periodic packings, see the
violations. -/
theorem C152_roundtrip_partial (sp sp0 : SpherePack) : ∃ sp', fromFile (toFile sp) sp0 = .ok sp' ∧ sp'.pack = sp.pack ∧
    (sp.cellSize ≠ 0 ∨ sp0.cellSize = 0 → sp'.cellSize = sp.cellSize) := by
  by_cases h : sp.cellSize = 0
  · refine ⟨{ sp0 with pack := sp.pack }, ?_, rfl, ?_⟩
    · rw [fromFile, toFile, if_neg (by simp [h]), List.nil_append, loadLines_spheres]
      rfl
    · intro h'; rw [h]; simpa [h] using h'
  · refine ⟨{ sp0 with pack := sp.pack, cellSize := sp.cellSize }, ?_, rfl, fun _ => rfl⟩
    rw [fromFile, toFile, if_pos h, List.singleton_append, loadLines]
    simp only
    rw [loadLines_spheres]
    have : (![sp.cellSize 0, sp.cellSize 1, sp.cellSize 2] : V3) = sp.cellSize := by funext i; fin_cases i <;> rfl
    rw [this]
    rfl

/-- C152 is violated by periodic packings: loaded into an empty packing and put into a simulation, they do not make it periodic. -/
theorem C152_violated_periodic (place : List Nat → V3) : ∃ sp sp' : SpherePack, Consistent sp ∧ sp.cellSize ≠ 0 ∧
    fromFile (toFile sp) SpherePack.empty = .ok sp' ∧ (toSimulation place 1 sp Sim.fresh).periodic = true ∧
    (toSimulation place 1 sp' Sim.fresh).periodic = false := by
  have hc : (![5, 5, 5] : V3) ≠ 0 := fun h => by have := congrFun h 0; simp at this
  refine ⟨⟨[], ![5, 5, 5], 1, true⟩, ⟨[], ![5, 5, 5], 1, false⟩, by simp [Consistent], hc, ?_, ?_, ?_⟩
  · rw [fromFile, toFile, if_pos hc]
    simp [loadLines, SpherePack.empty]
  · simp [toSimulation, setCell]
  · simp [toSimulation, setCell, Sim.fresh]

/-- C152 is violated by packings without a cell that are loaded into one with a cell: the earlier cell stays. -/
theorem C152_violated_cell : ∃ sp sp0 sp' : SpherePack, fromFile (toFile sp) sp0 = .ok sp' ∧ sp.cellSize = 0 ∧ sp'.cellSize ≠ 0 := by
  have hc : (![5, 5, 5] : V3) ≠ 0 := fun h => by have := congrFun h 0; simp at this
  refine ⟨SpherePack.empty, ⟨[], ![5, 5, 5], 1, true⟩, ⟨[], ![5, 5, 5], 1, true⟩, ?_, rfl, hc⟩
  simp [fromFile, toFile, SpherePack.empty, loadLines]

/-- C152 is violated by files that give the clump of some spheres only: a sphere without one joins the clump of the line before. -/
theorem C152_violated_columns : ∃ sp' : SpherePack, fromFile [.columns [0, 0, 0, 1, 7], .columns [9, 0, 0, 1]] SpherePack.empty = .ok sp' ∧
    sp'.pack.map Sph.clumpId = [7, 7] := by
  have h : ⌊(7 : ℝ)⌋ = 7 := by exact_mod_cast Int.floor_natCast (R := ℝ) 7
  refine ⟨{ SpherePack.empty with pack := [{ c := ![0, 0, 0], r := 1, clumpId := 7 }, { c := ![9, 0, 0], r := 1, clumpId := 7 }] }, ?_, rfl⟩
  simp [fromFile, loadLines, h, SpherePack.empty]

end Verif.Pack
