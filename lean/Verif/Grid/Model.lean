import Verif.Collide.Model
import Mathlib.Algebra.Order.Floor.Ring
import Mathlib.Algebra.Order.Field.Basic
/-!
# Model of the grid collider and of the quick-sort collider

Transcribes pkg/dem/FlatGridCollider.{hpp,cpp} and pkg/common/SpatialQuickSortCollider.{hpp,cpp}.

Simplifications: coordinates are elements of an ordered field; conversions to `int` do not overflow; the loops over cells
and bodies are lists; an interaction is its pair of ids, whether it is real, and the step it was last seen.
-/
namespace Verif.Grid
open Verif Verif.Collide

/-- core/Interaction.hpp 19–61: ids, `isReal()`, `iterLastSeen` -/
structure GI where
  a : Nat
  b : Nat
  real : Bool
  seen : Int
  deriving DecidableEq, Repr

/-- core/InteractionContainer.cpp `find`: does this interaction join the two bodies, in either order? -/
def GI.is (e : GI) (i j : Nat) : Bool := (decide (e.a = i) && decide (e.b = j)) || (decide (e.a = j) && decide (e.b = i))

/-- core/InteractionContainer.cpp `find` -/
def has (I : List GI) (i j : Nat) : Bool := I.any fun e => e.is i j

/-- `find` and `I->iterLastSeen=iter` -/
def see (iter : Int) (I : List GI) (i j : Nat) : List GI := I.map fun e => if e.is i j then { e with seen := iter } else e

/-! ## FlatGridCollider -/

section
variable {R : Type} [Field R] [LinearOrder R] [IsStrictOrderedRing R] [FloorRing R]

/-- pkg/dem/FlatGridCollider.hpp 5–21 `struct Grid` -/
structure Cells (R : Type) where
  size : Fin 3 → Int
  mn : Fin 3 → R
  step : R
  data : Int → List Nat

/-- pkg/dem/FlatGridCollider.hpp 11 `pt2int`: the second component of the origin is subtracted from all coordinates -/
def Cells.pt2int (g : Cells R) (p : Fin 3 → R) : Fin 3 → Int := fun i => ⌊(p i - g.mn 1) / g.step⌋

/-- pkg/dem/FlatGridCollider.hpp 14 `fit` -/
def fit (i sz : Int) : Int := max 0 (min i (sz - 1))

/-- pkg/dem/FlatGridCollider.hpp 17 `lin` -/
def Cells.lin (g : Cells R) (x y z : Int) : Int := fit x (g.size 0) + g.size 0 * fit y (g.size 1) + g.size 0 * g.size 1 * fit z (g.size 2)

/-- pkg/dem/FlatGridCollider.cpp 56: length of `data` -/
def Cells.len (g : Cells R) : Int := g.size 0 * g.size 1 * g.size 2

/-- pkg/dem/FlatGridCollider.cpp 47–60 `updateGrid` -/
def updateGrid (step : R) (mn mx : Fin 3 → R) : Res (Cells R) :=
  if step ≤ 0 then .throws
  else if mx 0 - mn 0 ≤ 0 ∨ mx 1 - mn 1 ≤ 0 ∨ mx 2 - mn 2 ≤ 0 then .throws
  else .ok ⟨fun i => ⌈(mx i - mn i) / step⌉, mn, step, fun _ => []⟩

/-- pkg/dem/FlatGridCollider.cpp 74: the closest point of the cell to the centre, one coordinate -/
def Cells.closest (g : Cells R) (C : Fin 3 → R) (cPt : Fin 3 → Int) (i : Fin 3) : R :=
  if cPt i = g.pt2int C i then C i else g.mn i + g.step * (cPt i + (if cPt i < g.pt2int C i then 1 else 0))

/-- pkg/dem/FlatGridCollider.cpp 75: is the closest point inside the sphere? -/
def Cells.inside (g : Cells R) (C : Fin 3 → R) (r : R) (cPt : Fin 3 → Int) : Bool :=
  decide ((C 0 - g.closest C cPt 0) ^ 2 + (C 1 - g.closest C cPt 1) ^ 2 + (C 2 - g.closest C cPt 2) ^ 2 ≤ r * r)

/-- pkg/dem/FlatGridCollider.cpp 76–78: put the id into the cell unless it is its last element; indexing outside `data` is undefined -/
def Cells.put (g : Cells R) (id : Nat) (cPt : Fin 3 → Int) : Res (Cells R) :=
  let k := g.lin (fit (cPt 0) (g.size 0)) (fit (cPt 1) (g.size 1)) (fit (cPt 2) (g.size 2))
  if 0 ≤ k ∧ k < g.len then
    if (g.data k).getLast? = some id then .ok g
    else .ok { g with data := fun n => if n = k then g.data k ++ [id] else g.data n }
  else .ub

/-- the integers from `a` to `b` -/
def upto (a b : Int) : List Int := (List.range (b - a + 1).toNat).map fun n : Nat => a + (n : Int)

/-- three integer coordinates -/
def tri (x y z : Int) : Fin 3 → Int := fun i => if i = 0 then x else if i = 1 then y else z

/-- pkg/dem/FlatGridCollider.cpp 71: the three nested loops over the bounding cells -/
def box3 (lo hi : Fin 3 → Int) : List (Fin 3 → Int) :=
  (upto (lo 0) (hi 0)).flatMap fun x => (upto (lo 1) (hi 1)).flatMap fun y => (upto (lo 2) (hi 2)).map fun z => tri x y z

/-- pkg/dem/FlatGridCollider.cpp 71–82: the body of the loops, over the cells in turn -/
def fillCells (C : Fin 3 → R) (r : R) (id : Nat) : List (Fin 3 → Int) → Cells R → Res (Cells R)
  | [], g => .ok g
  | c :: cs, g => (if g.inside C r c then g.put id c else .ok g).bind (fillCells C r id cs)

/-- what the collider reads of a body: attributes of the filter, position, shape (`none`: no shape; `some none`: not a sphere; `some r`:
a sphere of this radius) -/
structure GBody (R : Type) where
  flt : Flt
  pos : Fin 3 → R
  shape : Option (Option R)

/-- pkg/dem/FlatGridCollider.cpp 62–86 `updateBodyCells` -/
def updateBodyCells (verlet : R) (id : Nat) (b : GBody R) (g : Cells R) : Res (Cells R) :=
  match b.shape with
  | none => .ok g
  | some none => .throws
  | some (some rad) =>
    let r := rad + verlet
    fillCells b.pos r id (box3 (g.pt2int fun i => b.pos i - r) (g.pt2int fun i => b.pos i + r)) g

/-- pkg/dem/FlatGridCollider.cpp 32–35: the loop over the bodies from id `k` on; erased bodies are skipped -/
def allBodies (verlet : R) : Nat → List (Option (GBody R)) → Cells R → Res (Cells R)
  | _, [], g => .ok g
  | k, none :: bs, g => allBodies verlet (k + 1) bs g
  | k, some b :: bs, g => (updateBodyCells verlet k b g).bind (allBodies verlet (k + 1) bs)

/-- the attributes of the filter of body `i` -/
def fltOf (bs : List (Option (GBody R))) (i : Nat) : Option Flt := (bs.getD i none).map (·.flt)

/-- pkg/dem/FlatGridCollider.cpp 95–101: one pair of ids of one cell -/
def pairStep (avoid : Nat) (sub : Int) (bs : List (Option (GBody R))) (iter : Int) (i j : Nat) (I : List GI) : Res (List GI) :=
  if i = j then .ok I
  else if has I i j then .ok (see iter I i j)
  else (mayCollide avoid sub (fltOf bs i) (fltOf bs j)).bind fun c => .ok (if c then I ++ [⟨i, j, false, -1⟩] else I)

/-- pkg/dem/FlatGridCollider.cpp 94: the inner loop -/
def pairsWith (avoid : Nat) (sub : Int) (bs : List (Option (GBody R))) (iter : Int) (i : Nat) : List Nat → List GI → Res (List GI)
  | [], I => .ok I
  | j :: js, I => (pairStep avoid sub bs iter i j I).bind (pairsWith avoid sub bs iter i js)

/-- pkg/dem/FlatGridCollider.cpp 94: the pairs of one cell -/
def cellPairs (avoid : Nat) (sub : Int) (bs : List (Option (GBody R))) (iter : Int) : List Nat → List GI → Res (List GI)
  | [], I => .ok I
  | i :: is, I => (pairsWith avoid sub bs iter i is I).bind (cellPairs avoid sub bs iter is)

/-- pkg/dem/FlatGridCollider.cpp 88–105 `updateCollisions`: the cells with the numbers given -/
def collisions (avoid : Nat) (sub : Int) (bs : List (Option (GBody R))) (iter : Int) (g : Cells R) : List Int → List GI → Res (List GI)
  | [], I => .ok I
  | k :: ks, I => (cellPairs avoid sub bs iter (g.data k) I).bind (collisions avoid sub bs iter g ks)

/-- pkg/dem/FlatGridCollider.cpp 22–37 `action` (an integrator is found) -/
def gridAction (avoid : Nat) (sub : Int) (step verlet : R) (mn mx : Fin 3 → R) (bs : List (Option (GBody R))) (iter : Int) (I : List GI) :
    Res (List GI) :=
  (updateGrid step mn mx).bind fun g => (allBodies verlet 0 bs g).bind fun g =>
    collisions avoid sub bs iter g ((List.range g.len.toNat).map fun n : Nat => (n : Int)) I

end

/-! ## SpatialQuickSortCollider -/

section
variable {R : Type} [LinearOrder R]

/-- pkg/common/SpatialQuickSortCollider.hpp 17–20 `AABBBound` -/
structure Rk (R : Type) where
  id : Nat
  mn : Fin 3 → R
  mx : Fin 3 → R

/-- what the collider reads of a body: its box, if it has one, and the attributes of the filter, which it does not read -/
structure QBody (R : Type) where
  flt : Flt
  box : Option ((Fin 3 → R) × (Fin 3 → R))

/-- pkg/common/SpatialQuickSortCollider.cpp 40–48: entries for the bodies with a box, from id `k` on, in the order of the ids; iteration over
the bodies skips erased ones -/
def boxes : Nat → List (Option (QBody R)) → List (Rk R)
  | _, [] => []
  | k, none :: bs => boxes (k + 1) bs
  | k, some b :: bs =>
    match b.box with
    | none => boxes (k + 1) bs
    | some (mn, mx) => ⟨k, mn, mx⟩ :: boxes (k + 1) bs

/-- pkg/common/SpatialQuickSortCollider.cpp 29–36: `rank` gets the length of the container; new entries are not initialised -/
def resizeRank (n : Nat) (rank : List (Option (Rk R))) : List (Option (Rk R)) :=
  if n ≤ rank.length then rank.take n else rank ++ List.replicate (n - rank.length) none

/-- pkg/common/SpatialQuickSortCollider.cpp 39–48: the first entries are overwritten -/
def overwrite (rank : List (Option (Rk R))) (new : List (Rk R)) : List (Option (Rk R)) := new.map some ++ rank.drop new.length

/-- reading every entry, as the comparison of the sort does; an entry never written is undefined -/
def readAll : List (Option (Rk R)) → Res (List (Rk R))
  | [] => .ok []
  | none :: _ => .ub
  | some r :: l => (readAll l).bind fun l => .ok (r :: l)

/-- pkg/common/SpatialQuickSortCollider.cpp 66–69: overlap along y and z -/
def overlapYZ (r s : Rk R) : Bool := decide (s.mn 1 < r.mx 1) && decide (r.mn 1 < s.mx 1) && decide (s.mn 2 < r.mx 2) && decide (r.mn 2 < s.mx 2)

/-- pkg/common/SpatialQuickSortCollider.cpp 71–77: find or create, and mark as seen.  `insert` (core/InteractionContainer.cpp 13–39)
dereferences both bodies; an interaction of a body with itself is refused for the list of interactions (it stays in the body's own map, which
is not modelled). -/
def touch (bs : List (Option (QBody R))) (iter : Int) (I : List GI) (i j : Nat) : Res (List GI) :=
  if has I i j then .ok (see iter I i j)
  else match bs.getD i none, bs.getD j none with
    | some _, some _ => .ok (if i = j then I else I ++ [⟨i, j, false, iter⟩])
    | _, _ => .ub

/-- pkg/common/SpatialQuickSortCollider.cpp 62–79: the inner loop for the entry `r` over the entries after it -/
def qInner (bs : List (Option (QBody R))) (iter : Int) (r : Rk R) : List (Rk R) → List GI → Res (List GI)
  | [], I => .ok I
  | s :: l, I => if r.mx 0 < s.mn 0 then .ok I else (if overlapYZ r s then touch bs iter I r.id s.id else .ok I).bind (qInner bs iter r l)

/-- pkg/common/SpatialQuickSortCollider.cpp 57–80: the outer loop -/
def qOuter (bs : List (Option (QBody R))) (iter : Int) : List (Rk R) → List GI → Res (List GI)
  | [], I => .ok I
  | r :: l, I => (qInner bs iter r l I).bind (qOuter bs iter l)

/-- pkg/common/SpatialQuickSortCollider.cpp 16–81 `action` in an aperiodic scene, with the boxes `boundDispatcher` made; `srt` is
`std::sort`: any arrangement of the entries with non-decreasing lower x; the new `rank` and the interactions -/
def qAction (srt : List (Rk R) → List (Rk R)) (iter : Int) (bs : List (Option (QBody R))) (rank : List (Option (Rk R))) (I : List GI) :
    Res (List (Option (Rk R)) × List GI) :=
  (readAll (overwrite (resizeRank bs.length rank) (boxes 0 bs))).bind fun l =>
    (qOuter bs iter (srt l) (I.filter (·.real))).bind fun I => .ok ((srt l).map some, I)

end

end Verif.Grid
