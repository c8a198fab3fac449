import Verif.Pack.Cloud
import Verif.Pack.Pred

/-!
# Operations on sphere packings

Transcription of the members of `SpherePack` apart from the random generators (pkg/dem/SpherePack.hpp
and SpherePack.cpp), of `Shop::loadSpheresFromFile` (pkg/dem/Shop_01.cpp) and of
`SpherePack_toSimulation` and `filterSpherePack` (py/pack/pack.py).  Numbers are real, also in files:
the rounding to six digits when a packing is saved is not modelled.
-/
namespace Verif.Pack
open Verif.Mech
open scoped Classical

/-- `SpherePack(list)`, SpherePack.hpp 39 and SpherePack.cpp 23-33: `appliedPsdScaling` and
`isPeriodic` keep whatever was in memory. -/
def ofList (garbage : ℝ × Bool) (l : List Sph) : SpherePack := ⟨l, 0, garbage.1, garbage.2⟩

/-- `fromList`, SpherePack.cpp 23-33. -/
def fromList (sp : SpherePack) (l : List Sph) : SpherePack := { sp with pack := l }

/-- `toList`, SpherePack.cpp 45-49. -/
def toList (sp : SpherePack) : List Sph := sp.pack

/-- `aabb`, SpherePack.hpp 71-78; none for an empty packing, the corners of which are infinite. -/
noncomputable def packBox : List Sph → Option (V3 × V3)
  | [] => none
  | s :: l => some (fun i => l.foldl (fun m s => min m (s.c i - s.r)) (s.c i - s.r),
      fun i => l.foldl (fun m s => max m (s.c i + s.r)) (s.c i + s.r))

/-- `dim`, SpherePack.hpp 69. -/
noncomputable def dim (l : List Sph) : Option V3 := (packBox l).map fun (mn, mx) => mx - mn

/-- `midPt`, SpherePack.hpp 79; not a number for an empty packing, none of the functions below use it
then. -/
noncomputable def midPt (l : List Sph) : V3 :=
  match packBox l with
  | none => 0
  | some (mn, mx) => (0.5 : ℝ) • (mn + mx)

/-- `relDensity`, SpherePack.hpp 80-85; not a number for an empty packing or a box of no volume. -/
noncomputable def relDensity (l : List Sph) : Res ℝ :=
  match dim l with
  | none => .ub
  | some dd =>
    let sphVol := l.foldl (fun v s => v + s.r ^ 3) 0
    quot (sphVol * (4 / 3 * Real.pi)) (dd 0 * dd 1 * dd 2)

/-- `translate`, SpherePack.hpp 91. -/
def translate (shift : V3) (sp : SpherePack) : SpherePack :=
  { sp with pack := sp.pack.map fun s => { s with c := s.c + shift } }

/-- `Quaternionr(AngleAxisr(angle,axis))`, SpherePack.hpp 97: Eigen does not normalise the axis. -/
noncomputable def angleAxis (axis : V3) (angle : ℝ) : Quat :=
  ⟨Real.cos (0.5 * angle), Real.sin (0.5 * angle) * axis 0, Real.sin (0.5 * angle) * axis 1, Real.sin (0.5 * angle) * axis 2⟩

/-- `rotate`, SpherePack.hpp 92-98. -/
noncomputable def rotate (axis : V3) (angle : ℝ) (sp : SpherePack) : SpherePack :=
  let mid := midPt sp.pack
  { sp with
    cellSize := 0
    pack := sp.pack.map fun s => { s with c := (angleAxis axis angle).rot (s.c - mid) + mid } }

/-- `rotateAroundOrigin`, SpherePack.hpp 99-105. -/
def rotateAroundOrigin (q : Quat) (sp : SpherePack) : SpherePack :=
  { sp with cellSize := 0, pack := sp.pack.map fun s => { s with c := q.rot s.c } }

/-- `scale`, SpherePack.hpp 106-113. -/
noncomputable def scale (k : ℝ) (sp : SpherePack) : SpherePack :=
  let mid := midPt sp.pack
  { sp with
    cellSize := k • sp.cellSize
    pack := sp.pack.map fun s => { s with c := k • (s.c - mid) + mid, r := s.r * |k| } }

/-- The copies for one cell, SpherePack.cpp 273-277; copies have no clump id. -/
def copyOf (cell : V3) (orig : List Sph) (i j k : Nat) : List Sph :=
  if i = 0 ∧ j = 0 ∧ k = 0 then []
  else orig.map fun s => { c := s.c + ![cell 0 * i, cell 1 * j, cell 2 * k], r := s.r }

/-- `cellRepeat`, SpherePack.cpp 265-282. -/
noncomputable def cellRepeat (count : Fin 3 → Int) (sp : SpherePack) : Res SpherePack :=
  if sp.cellSize = 0 then .throws
  else if count 0 ≤ 0 ∨ count 1 ≤ 0 ∨ count 2 ≤ 0 then .throws
  else .ok { sp with
    pack := sp.pack ++ (List.range (count 0).toNat).flatMap fun i => (List.range (count 1).toNat).flatMap fun j =>
      (List.range (count 2).toNat).flatMap fun k => copyOf sp.cellSize sp.pack i j k
    cellSize := fun a => sp.cellSize a * count a }

/-- `cellFill`, SpherePack.cpp 258-263: the conversion to `int` is undefined if the cell has no size
along an axis. -/
noncomputable def cellFill (vol : V3) (sp : SpherePack) : Res SpherePack :=
  if ∃ i, sp.cellSize i = 0 then .ub
  else cellRepeat (fun i => ⌈vol i / sp.cellSize i⌉) sp

/-- The smallest and the largest diameter, SpherePack.cpp 297-301; none for no spheres. -/
noncomputable def extrema : List Sph → Option (ℝ × ℝ)
  | [] => none
  | s :: l =>
    let minD := l.foldl (fun m s => min (2 * s.r) m) (2 * s.r)
    let maxD := l.foldl (fun m s => max (2 * s.r) m) (2 * s.r)
    if minD = maxD then some (minD - 0.5, maxD + 0.5) else some (minD, maxD)

/-- `bin`, SpherePack.cpp 307 (the number converted is not negative). -/
noncomputable def binOf (bins : Nat) (minD maxD d : ℝ) : Nat := min ⌊bins * (d - minD) / (maxD - minD)⌋.toNat (bins - 1)

/-- `hist`, SpherePack.cpp 303, 306-309. -/
noncomputable def histogram (bins : Nat) (minD maxD : ℝ) (weight : Sph → ℝ) (l : List Sph) : List ℝ :=
  l.foldl (fun hist s => hist.modify (binOf bins minD maxD (2 * s.r)) (· + weight s)) (List.replicate bins 0)

/-- `cumm`, SpherePack.cpp 303, 310. -/
noncomputable def cumulate : ℝ → List ℝ → List ℝ
  | acc, [] => [acc]
  | acc, h :: t => acc :: cumulate (min 1 (acc + h)) t

/-- `psd`, SpherePack.cpp 294-312: two lists in the order returned.  A negative number of bins is
refused by `vector`, with no bins a negative index is used, and weights are not numbers if all radii
are zero. -/
noncomputable def psd (bins : Int) (mass : Bool) (l : List Sph) : Res (List ℝ × List ℝ) :=
  match extrema l with
  | none => .ok ([], [])
  | some (minD, maxD) =>
    let vol := l.foldl (fun v s => v + s.r ^ 3) 0
    if bins < 0 then .throws
    else if bins = 0 then .ub
    else if mass ∧ vol = 0 then .ub
    else
      let edges := (List.range (bins.toNat + 1)).map fun (i : Nat) => minD + i * (maxD - minD) / bins.toNat
      let hist := histogram bins.toNat minD maxD (fun s => if mass then s.r ^ 3 / vol else 1 / l.length) l
      .ok (edges, cumulate 0 hist)

/-- `hasClumps`, SpherePack.cpp 427. -/
def hasClumps (l : List Sph) : Bool := l.any fun s => decide (0 ≤ s.clumpId)

/-- `clumps[id].append(i)` for a `std::map` kept in the order of its keys, SpherePack.cpp 434-435. -/
def addTo (id : Int) (i : Nat) : List (Int × List Nat) → List (Int × List Nat)
  | [] => [(id, [i])]
  | (k, m) :: t =>
    if id < k then (id, [i]) :: (k, m) :: t
    else if id = k then (k, m ++ [i]) :: t
    else (k, m) :: addTo id i t

/-- The loop of `getClumps`, SpherePack.cpp 431-436, from index `i`. -/
def clumpsFrom : Nat → List Sph → List Nat × List (Int × List Nat) → List Nat × List (Int × List Nat)
  | _, [], acc => acc
  | i, s :: l, (alone, clumps) =>
    if s.clumpId < 0 then clumpsFrom (i + 1) l (alone ++ [i], clumps)
    else clumpsFrom (i + 1) l (alone, addTo s.clumpId i clumps)

/-- `getClumps`, SpherePack.cpp 428-441. -/
def getClumps (l : List Sph) : List Nat × List (List Nat) :=
  let (alone, clumps) := clumpsFrom 0 l ([], [])
  (alone, clumps.map Prod.snd)

/-! ## Files -/

/-- The lines of a file as read by `Shop::loadSpheresFromFile`, Shop_01.cpp 412-422: empty, beginning
with `##PERIODIC::`, or columns. -/
inductive Line where
  | blank
  | periodic (args : List ℝ)
  | columns (cols : List ℝ)

/-- `toFile`, SpherePack.cpp 60-69. -/
noncomputable def toFile (sp : SpherePack) : List Line :=
  (if sp.cellSize ≠ 0 then [.periodic [sp.cellSize 0, sp.cellSize 1, sp.cellSize 2]] else []) ++
    sp.pack.map fun s => .columns [s.c 0, s.c 1, s.c 2, s.r, s.clumpId]

/-- The loop of `Shop::loadSpheresFromFile`, Shop_01.cpp 412-428, with `cellSize`, `clumpId` and
`spheres`; `clumpId` is kept from line to line.  A column that is not a whole number is no `int`. -/
noncomputable def loadLines : List Line → V3 → Int → List Sph → Res (V3 × List Sph)
  | [], cell, _, l => .ok (cell, l)
  | .blank :: t, cell, id, l => loadLines t cell id l
  | .periodic args :: t, _, id, l =>
    match args with
    | [x, y, z] => loadLines t ![x, y, z] id l
    | _ => .throws
  | .columns cols :: t, cell, id, l =>
    match cols with
    | [x, y, z, r] => loadLines t cell id (l ++ [{ c := ![x, y, z], r := r, clumpId := id }])
    | [x, y, z, r, k] =>
      if (⌊k⌋ : ℝ) = k then loadLines t cell ⌊k⌋ (l ++ [{ c := ![x, y, z], r := r, clumpId := ⌊k⌋ }]) else .throws
    | _ => .throws

/-- `fromFile`, SpherePack.cpp 51-58, with Shop_01.cpp 407-411. -/
noncomputable def fromFile (file : List Line) (sp : SpherePack) : Res SpherePack :=
  (loadLines file sp.cellSize (-1) []).bind fun (cell, l) => .ok { sp with pack := l, cellSize := cell }

/-! ## Simulations -/

/-- What the packing functions see of a body, core/Body.hpp: position, radius if the shape is a
sphere, and the clump it is a member of, SpherePack.cpp 75-78. -/
structure SimBody where
  pos : V3
  radius : Option ℝ
  clump : Option Nat := none

/-- What the packing functions see of a simulation: bodies (none if erased), whether it is periodic,
and `hSize` and `trsf` of its cell (core/Scene.hpp, core/Cell.hpp). -/
structure Sim where
  bodies : List (Option SimBody)
  periodic : Bool
  hSize : M3
  trsf : M3

/-- `Cell::getSize`, core/Cell.hpp 24 and Cell.cpp 21: lengths of the columns of `hSize`. -/
noncomputable def cellLengths (h : M3) : V3 := fun j => norm3 fun i => h i j

/-- `fromSimulation`, SpherePack.cpp 71-84. -/
noncomputable def fromSimulation (sim : Sim) (sp : SpherePack) : SpherePack :=
  let pack := sim.bodies.filterMap fun b => b.bind fun b => b.radius.map fun r =>
    { c := b.pos, r := r, clumpId := match b.clump with | some k => (k : Int) | none => -1 }
  if sim.periodic then { sp with pack := pack, cellSize := cellLengths sim.hSize, isPeriodic := true }
  else { sp with pack := pack }

/-- The cell set by `SpherePack_toSimulation`, pack.py 103-106. -/
noncomputable def setCell (rot : M3) (sp : SpherePack) (sim : Sim) : Sim :=
  let sim := if sp.isPeriodic then { sim with periodic := true } else sim
  if sp.cellSize ≠ 0 ∧ sp.isPeriodic then { sim with hSize := rot * Matrix.diagonal sp.cellSize, trsf := 1 } else sim

/-- The bodies appended by `SpherePack_toSimulation`, pack.py 107-119: positions and radii of spheres,
and the lists of spheres joined to clumps, as indices of the spheres appended. -/
noncomputable def appended (rot : M3) (sp : SpherePack) : List (V3 × ℝ) × List (List Nat) :=
  (sp.pack.map fun s => (rot.mulVec s.c, s.r), if hasClumps sp.pack then (getClumps sp.pack).2 else [])

/-- `SpherePack_toSimulation`, pack.py 101-119.  Bodies are appended behind those that are there, the clumps behind their members;
`place` gives the places of the clumps, which are found by `O.bodies.clump`. -/
noncomputable def toSimulation (place : List Nat → V3) (rot : M3) (sp : SpherePack) (sim : Sim) : Sim :=
  let sim := setCell rot sp sim
  let (spheres, clumps) := appended rot sp
  let clumpOf (i : Nat) : Option Nat := (clumps.findIdx? fun m => decide (i ∈ m)).map fun x => sim.bodies.length + spheres.length + x
  { sim with bodies := sim.bodies ++ (spheres.mapIdx fun i (c, r) => some { pos := c, radius := some r, clump := clumpOf i }) ++
      clumps.map fun m => some { pos := place m, radius := none } }

/-- `filterSpherePack` with `returnSpherePack`, pack.py 362-379: the packing returned and the packing
given, which is moved.  An infinite box of the solid or an empty packing have no centre. -/
noncomputable def filterSpherePack (s : Solid) (sp : SpherePack) : Res (SpherePack × SpherePack) :=
  match s.aabb, packBox sp.pack with
  | some (mn, mx), some _ =>
    if ∃ i, mx i = ⊤ ∨ mn i = ⊥ ∨ mx i = ⊥ ∨ mn i = ⊤ then .ub
    else
      let centP : V3 := fun i => ((mn i).toReal + (mx i).toReal) / 2
      let moved := translate (centP - midPt sp.pack) sp
      .ok ({ SpherePack.empty with pack := (moved.pack.filter fun b => s.inside b.c b.r).map fun b => { c := b.c, r := b.r } }, moved)
  | none, some _ => .ub
  | _, none => .ok (SpherePack.empty, sp)

end Verif.Pack
