import Verif.Pack.Ops

/-!
# Random packings of clumps: `SpherePack::makeClumpCloud`

Transcription of pkg/dem/SpherePack.cpp 314-425.  Numbers are real, reads outside of vectors are the
outcome `ub`; a squared distance that is not a number is none, and comparisons with it are false.
-/
namespace Verif.Pack
open Verif.Mech
open scoped Classical

/-- `ClumpInfo`, SpherePack.hpp 21. -/
structure ClumpInfo where
  clumpId : Int
  center : V3
  rad : ℝ
  minId : Nat
  maxId : Nat

/-- A clump as given, `translate`d by the centre of its box, SpherePack.cpp 319-320. -/
noncomputable def recentered (c : SpherePack) : List Sph := (translate (midPt c.pack) c).pack

/-- `r` put into `boundRad`, SpherePack.cpp 322-324. -/
noncomputable def boundRad (l : List Sph) : ℝ := l.foldl (fun r s => max r (norm3 s.c + s.r)) 0

/-- `periPtDistSq`, SpherePack.hpp 16-20; not a number if the cell has no size along an axis. -/
noncomputable def periPtDistSq (cell p1 p2 : V3) : Option ℝ :=
  if ∃ ax, cell ax = 0 then none
  else some (sqNorm fun ax => min (cellWrapRel (p1 ax) (p2 ax) (p2 ax + cell ax)) (cellWrapRel (p2 ax) (p1 ax) (p1 ax + cell ax)))

/-- The squared distance used, SpherePack.cpp 362, 364 or 369, 372, 374. -/
noncomputable def distSq (periodic : Bool) (cell a b : V3) : Option ℝ := if periodic then periPtDistSq cell a b else some (sqNorm (a - b))

/-- A squared distance is below the square of a sum of radii, SpherePack.cpp 362-374. -/
def closer (d : Option ℝ) (r : ℝ) : Prop :=
  match d with
  | none => False
  | some d => d < r ^ 2

/-- The loop over `id` of SpherePack.cpp 364 and 374: is there a sphere that overlaps `s`? -/
noncomputable def scanIds (dist : V3 → V3 → Option ℝ) (pack : List Sph) (s : Sph) : List Nat → Res Bool
  | [] => .ok false
  | id :: ids =>
    match pack[id]? with
    | none => .ub
    | some p => if closer (dist s.c p.c) (s.r + p.r) then .ok true else scanIds dist pack s ids

/-- The loop over the spheres of the clump in SpherePack.cpp 364 and 374. -/
noncomputable def scanMembers (dist : V3 → V3 → Option ℝ) (pack : List Sph) (ids : List Nat) : List Sph → Res Bool
  | [] => .ok false
  | s :: l => (scanIds dist pack s ids).bind fun b => if b then .ok true else scanMembers dist pack ids l

/-- The loop over the clumps placed, SpherePack.cpp 359-365 and 367-376. -/
noncomputable def scanClumps (dist : V3 → V3 → Option ℝ) (pack : List Sph) (C : List Sph) (pos : V3) (rad : ℝ) : List ClumpInfo → Res Bool
  | [] => .ok false
  | i :: t =>
    (if closer (dist pos i.center) (rad + i.rad) ∧ ∃ s ∈ C, closer (dist s.c i.center) (s.r + i.rad) then
        scanMembers dist pack (List.range' i.minId (i.maxId + 1 - i.minId)) C
      else .ok false).bind fun b =>
    if b then .ok true else scanClumps dist pack C pos rad t

/-- Something reaches out of the box, SpherePack.cpp 357. -/
def beyond (mn mx c : V3) (r : ℝ) : Prop := ∃ i, c i + r > mx i ∨ c i - r < mn i

/-- `pos`, SpherePack.cpp 342-345. -/
def randomPos (mn mx : V3) (g : Rnd) : V3 := fun i => g i.val * (mx i - mn i) + mn i

/-- `ori`, SpherePack.cpp 347. -/
noncomputable def randomOri (g : Rnd) : Quat := Quat.normalize ⟨g 3, g 4, g 5, g 6⟩

/-- `C`, SpherePack.cpp 349. -/
noncomputable def placed (c : List Sph) (ori : Quat) (pos : V3) : List Sph :=
  (translate pos (rotateAroundOrigin ori ⟨c, 0, 1, false⟩)).pack

/-- Whether the clump collides, SpherePack.cpp 355-377. -/
noncomputable def collides (mn mx cell : V3) (periodic : Bool) (pack : List Sph) (infos : List ClumpInfo) (C : List Sph) (pos : V3) (rad : ℝ) : Res Bool :=
  if ¬ periodic ∧ beyond mn mx pos rad ∧ ∃ s ∈ C, beyond mn mx s.c s.r then .ok true
  else scanClumps (distSq periodic cell) pack C pos rad infos

/-- The tries to place a clump, SpherePack.cpp 341-422: the spheres and the place, if they were found, and
the generator after it. -/
noncomputable def tryClump (mn mx cell : V3) (periodic : Bool) (pack : List Sph) (infos : List ClumpInfo) (c : List Sph) :
    Nat → Rnd → Res (Option (List Sph × V3) × Rnd)
  | 0, g => .ok (none, g)
  | t + 1, g =>
    let pos := randomPos mn mx g
    let C := placed c (randomOri g) pos
    (collides mn mx cell periodic pack infos C pos (boundRad c)).bind fun b =>
      if b then tryClump mn mx cell periodic pack infos c t (skip 7 g) else .ok (some (C, pos), skip 7 g)

/-- How often a clump is tried, SpherePack.cpp 333, 418: once more than `maxTry`. -/
def clumpTries : Nat := 201

/-- The clump chosen, SpherePack.cpp 339. -/
noncomputable def choice (clumps : List (List Sph)) (x : ℝ) : Option (List Sph) := clumps[⌊x * (clumps.length - 1e-20)⌋.toNat]?

/-- The loop of SpherePack.cpp 338-423 with `nGen`, `pack` and `clumpInfos`; it is given at most `n` rounds
and has no outcome if they do not suffice. -/
noncomputable def clumpLoop (mn mx cell : V3) (periodic : Bool) (num : Int) (clumps : List (List Sph)) :
    Nat → Nat → List Sph → List ClumpInfo → Rnd → Option (Res (List Sph × Nat × Rnd))
  | 0, _, _, _, _ => none
  | n + 1, nGen, pack, infos, g =>
    if (nGen : Int) < num ∨ num < 0 then
      match choice clumps (g 0) with
      | none => some .ub
      | some c =>
        match tryClump mn mx cell periodic pack infos c clumpTries (skip 1 g) with
        | .ub => some .ub
        | .throws => some .throws
        | .ok (none, g) => some (.ok (pack, nGen, g))
        | .ok (some (C, pos), g) =>
          clumpLoop mn mx cell periodic num clumps n (nGen + 1) (pack ++ C.map fun s => { s with clumpId := nGen })
            (infos ++ [⟨nGen, pos, boundRad c, pack.length, pack.length + C.length⟩]) g
    else some (.ok (pack, nGen, g))

/-- `makeClumpCloud`, SpherePack.cpp 314-425, without the seed: the new packing, the number returned and the
generator after it. -/
noncomputable def makeClumpCloud (n : Nat) (mn mx : V3) (clumps : List SpherePack) (periodic : Bool) (num : Int) (sp : SpherePack) (g : Rnd) :
    Option (Res (SpherePack × Nat × Rnd)) :=
  let sp := if periodic then { sp with cellSize := mx - mn } else sp
  (clumpLoop mn mx sp.cellSize periodic num (clumps.map recentered) n 0 sp.pack [] g).map fun r =>
    r.bind fun (pack, k, g) => .ok ({ sp with pack := pack }, k, g)

end Verif.Pack
