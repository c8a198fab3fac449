import Verif.Base
import Mathlib.Order.Defs.LinearOrder
import Mathlib.Algebra.Notation.Defs
/-!
# Model of the sweep-and-prune collider (non-periodic scenes)

Transcribes `pkg/common/Collider.cpp:16–42` (pair filter) and `pkg/common/InsertionSortCollider.{hpp,cpp}` for
non-periodic scenes: comparison of bounds, sequential and parallel insertion sort, the initial sweep, `action`.

Simplifications:
* coordinates are elements of any linear order `R` (no NaN);
* the interaction container is the finite map of unordered pairs shown in C06, here a list of entries;
* the boxes of the bodies are those after `boundDispatcher->action()` (InsertionSortCollider.cpp:264), an input;
* `std::sort` is a parameter, any function giving a coordinate-sorted permutation (see C29);
* in the parallel sort the loop iterations of different threads are executed one after the other (the index
  ranges they touch are disjoint, `C28_ranges_disjoint`), and the decision whether chunks are too narrow for the
  verlet distance is a parameter;
* `YADE_MPI` is defined (Collider.cpp:12), `YADE_SPH` is not.
-/
namespace Verif.Collide
open Verif

/-! ## The pair filter -/

/-- the attributes of a body the filter reads (core/Body.hpp:82–95) -/
structure Flt where
  id : Int
  clumpId : Int
  /-- bit pattern of `groupMask` -/
  mask : Nat
  sub : Int
  isSub : Bool
  deriving DecidableEq

/-- core/Body.hpp:42 `isClump` -/
def Flt.isClump (b : Flt) : Bool := decide (b.clumpId ≠ -1) && decide (b.id = b.clumpId)

/-- core/Body.hpp:46 `isStandalone` -/
def Flt.isStandalone (b : Flt) : Bool := decide (b.clumpId = -1)

/-- core/Body.cpp `maskCompatible` -/
def Flt.maskCompatible (b : Flt) (m : Nat) : Bool := decide (b.mask &&& m ≠ 0)

/-- pkg/common/Collider.cpp:22–41: the condition for two existing bodies -/
def filter (avoid : Nat) (sub : Int) (b1 b2 : Flt) : Bool :=
  ((decide (sub = b1.sub) || decide (sub = b2.sub)) && !(decide (b1.sub = b2.sub) && (b1.isSub || b2.isSub)))
  && (b1.isStandalone || b2.isStandalone || decide (b1.clumpId ≠ b2.clumpId))
  && !b1.isClump && !b2.isClump
  && b1.maskCompatible b2.mask
  && !(decide (b1.mask = b2.mask) && b1.maskCompatible avoid)

/-- pkg/common/Collider.cpp:16–42 `mayCollide`; `none` is a null pointer. The subdomain of both bodies is read (:24)
before the pointers are tested (:27). -/
def mayCollide (avoid : Nat) (sub : Int) : Option Flt → Option Flt → Res Bool
  | some b1, some b2 => .ok (filter avoid sub b1 b2)
  | _, _ => .ub

/-! ## Bounds -/

variable {R : Type} [LinearOrder R] [Zero R]

/-- InsertionSortCollider.hpp:79–88 `Bounds` (without the period) -/
structure Bd (R : Type) where
  coord : R
  id : Nat
  isMin : Bool
  hasBB : Bool
  deriving DecidableEq

/-- InsertionSortCollider.hpp:90–94 `operator<` -/
def Bd.lt (a b : Bd R) : Bool := if a.id = b.id ∧ a.coord = b.coord then a.isMin else decide (a.coord < b.coord)

/-- InsertionSortCollider.hpp:95–98 `operator>` -/
def Bd.gt (a b : Bd R) : Bool := if a.id = b.id ∧ a.coord = b.coord then !a.isMin else decide (b.coord < a.coord)

/-- a body as the collider sees it: filter attributes, bound if any (core/Bound.hpp min, max), position -/
structure CBody (R : Type) where
  flt : Flt
  bound : Option ((Fin 3 → R) × (Fin 3 → R))
  pos : Fin 3 → R

/-- the scene: `n` body slots, null where the body was erased -/
structure Scn (R : Type) where
  n : Nat
  body : Nat → Option (CBody R)
  avoid : Nat
  sub : Int

/-- an entry of the interaction container -/
structure Ent where
  a : Nat
  b : Nat
  real : Bool
  deriving DecidableEq

abbrev Ints := List Ent

/-- the entry is for the unordered pair `i j` -/
def Ent.is (e : Ent) (i j : Nat) : Bool := (decide (e.a = i) && decide (e.b = j)) || (decide (e.a = j) && decide (e.b = i))

/-- InteractionContainer `found` (C06) -/
def has (I : Ints) (i j : Nat) : Bool := I.any (fun e => e.is i j)

/-- InteractionContainer `insert(new Interaction(i,j))`: refused for a pair that is there (C06) -/
def ins (I : Ints) (i j : Nat) : Ints := if has I i j then I else I ++ [⟨i, j, false⟩]

/-- what the sorting routines read: scene, `minima`, `maxima` and their length divided by 3
(InsertionSortCollider.hpp:127) -/
structure Cx (R : Type) where
  S : Scn R
  mn : Nat → Fin 3 → R
  mx : Nat → Fin 3 → R
  nmm : Nat

/-- InsertionSortCollider.hpp:147–152 `spatialOverlap` -/
def overlap (C : Cx R) (i j : Nat) : Bool :=
  decide (C.mn i 0 ≤ C.mx j 0) && decide (C.mx i 0 ≥ C.mn j 0) &&
  decide (C.mn i 1 ≤ C.mx j 1) && decide (C.mx i 1 ≥ C.mn j 1) &&
  decide (C.mn i 2 ≤ C.mx j 2) && decide (C.mx i 2 ≥ C.mn j 2)

/-- filter attributes of body `i`; null for an erased one -/
def fltOf (S : Scn R) (i : Nat) : Option Flt := (S.body i).map (·.flt)

/-- `spatialOverlap(i,j) && mayCollide(..)`, reading outside the arrays is undefined -/
def wanted (C : Cx R) (i j : Nat) : Res Bool :=
  if i < C.nmm ∧ j < C.nmm then
    if overlap C i j then mayCollide C.S.avoid C.S.sub (fltOf C.S i) (fltOf C.S j) else .ok false
  else .ub

/-- InsertionSortCollider.cpp:23–32 `handleBoundInversion` -/
def handle (C : Cx R) (I : Ints) (i j : Nat) : Res Ints :=
  match wanted C i j with
  | .ok true => .ok (ins I i j)
  | .ok false => .ok I
  | .throws => .throws
  | .ub => .ub

/-- InsertionSortCollider.cpp:47 (and :97, :125): the inversion of `x` with `y` is to be looked at -/
def relevant (dc : Bool) (x y : Bd R) : Bool := x.isMin && !y.isMin && dc && x.hasBB && y.hasBB && decide (x.id ≠ y.id)

/-- InsertionSortCollider.cpp:47–50 -/
def pass (C : Cx R) (dc : Bool) (I : Ints) (x y : Bd R) : Res Ints :=
  if relevant dc x y then handle C I x.id y.id else .ok I

/-- InsertionSortCollider.cpp:41–53: insert `x` in the part of the list before it, which is given in reverse order (as it
is traversed) -/
def insStep (C : Cx R) (dc : Bool) (x : Bd R) : Ints → List (Bd R) → Res (Ints × List (Bd R))
  | I, [] => .ok (I, [x])
  | I, y :: ys =>
    if y.gt x then
      match pass C dc I x y with
      | .ok I' => match insStep C dc x I' ys with
        | .ok (I'', r) => .ok (I'', y :: r)
        | .throws => .throws
        | .ub => .ub
      | .throws => .throws
      | .ub => .ub
    else .ok (I, x :: y :: ys)

/-- InsertionSortCollider.cpp:37–54: `rev` is the sorted part, reversed, the other list what is still to be inserted -/
def sortLoop (C : Cx R) (dc : Bool) : Ints → List (Bd R) → List (Bd R) → Res (Ints × List (Bd R))
  | I, rev, [] => .ok (I, rev.reverse)
  | I, rev, x :: xs =>
    match insStep C dc x I rev with
    | .ok (I', rev') => sortLoop C dc I' rev' xs
    | .throws => .throws
    | .ub => .ub

/-- InsertionSortCollider.cpp:34–55 `insertionSort` -/
def insertionSort (C : Cx R) (dc : Bool) (I : Ints) (v : List (Bd R)) : Res (Ints × List (Bd R)) := sortLoop C dc I [] v

/-! ## Parallel sort -/

/-- the pairs found by one thread: InsertionSortCollider.cpp:97–102, 125–129 -/
def passP (C : Cx R) (dc : Bool) (I : Ints) (new : List (Nat × Nat)) (x y : Bd R) : Res (List (Nat × Nat)) :=
  if relevant dc x y then
    match wanted C y.id x.id with
    | .ok true => .ok (if has I y.id x.id then new else new ++ [(y.id, x.id)])
    | .ok false => .ok new
    | .throws => .throws
    | .ub => .ub
  else .ok new

/-- InsertionSortCollider.cpp:95–105 (`test` is `v[j]>viInit`) and :123–132 (`test` is `viInit<v[j]`): insertion in a limited
range, given in reverse order; also tells whether the start of the range was passed -/
def insStepP (C : Cx R) (dc : Bool) (I : Ints) (test : Bd R → Bd R → Bool) (x : Bd R) :
    List (Nat × Nat) → List (Bd R) → Res (List (Nat × Nat) × List (Bd R) × Bool)
  | new, [] => .ok (new, [x], true)
  | new, y :: ys =>
    if test y x then
      match passP C dc I new x y with
      | .ok new' => match insStepP C dc I test x new' ys with
        | .ok (new'', r, b) => .ok (new'', y :: r, b)
        | .throws => .throws
        | .ub => .ub
      | .throws => .throws
      | .ub => .ub
    else .ok (new, x :: y :: ys, false)

/-- InsertionSortCollider.cpp:92–106: sort one chunk -/
def sortLoopP (C : Cx R) (dc : Bool) (I : Ints) : List (Nat × Nat) → List (Bd R) → List (Bd R) →
    Res (List (Nat × Nat) × List (Bd R))
  | new, rev, [] => .ok (new, rev.reverse)
  | new, rev, x :: xs =>
    match insStepP C dc I Bd.gt x new rev with
    | .ok (new', rev', _) => sortLoopP C dc I new' rev' xs
    | .throws => .throws
    | .ub => .ub

/-- InsertionSortCollider.cpp:90–107, first sort: `k` chunks of length `cs`, then the rest -/
def phase1 (C : Cx R) (dc : Bool) (I : Ints) (cs : Nat) : Nat → List (Nat × Nat) → List (Bd R) →
    Res (List (Nat × Nat) × List (List (Bd R)))
  | 0, new, v => match sortLoopP C dc I new [] v with
    | .ok (new', w) => .ok (new', [w])
    | .throws => .throws
    | .ub => .ub
  | k + 1, new, v => match sortLoopP C dc I new [] (v.take cs) with
    | .ok (new', w) => match phase1 C dc I cs k new' (v.drop cs) with
      | .ok (new'', ws) => .ok (new'', w :: ws)
      | .throws => .throws
      | .ub => .ub
    | .throws => .throws
    | .ub => .ub

/-- InsertionSortCollider.cpp:118–135 for one border: `rev` is the half chunk before the border in reverse order, `r` what
follows it, `m` the number of bounds that may be moved before `halfChunkEnd` is reached. The flag is
`parallelFailed`. -/
def border (C : Cx R) (dc : Bool) (I : Ints) : Nat → List (Nat × Nat) → List (Bd R) → List (Bd R) → Bool →
    Res (List (Nat × Nat) × List (Bd R) × Bool)
  | 0, new, rev, r, _ => .ok (new, rev.reverse ++ r, true)
  | m + 1, new, rev, r, failed =>
    match r, rev with
    | x :: r', y :: _ =>
      if x.lt y then
        match insStepP C dc I (fun y x => x.lt y) x new rev with
        | .ok (new', rev', b) => border C dc I m new' rev' r' (failed || b)
        | .throws => .throws
        | .ub => .ub
      else .ok (new, rev.reverse ++ r, failed)
    | _, _ => .ub                                   -- `v[i]` behind the end (or `v[i-1]` before the beginning)

/-- InsertionSortCollider.cpp:113–136, second sort: `p` is the list before the border, the chunks follow -/
def phase2 (C : Cx R) (dc : Bool) (I : Ints) (cs : Nat) : List (Nat × Nat) → List (Bd R) → List (List (Bd R)) → Bool →
    Res (List (Nat × Nat) × List (Bd R) × Bool)
  | new, p, [], failed => .ok (new, p, failed)
  | new, p, w :: ws, failed =>
    -- halfChunkStart = border − ⌈cs/2⌉, halfChunkEnd = border + ⌊cs/2⌋
    match border C dc I (cs / 2) new ((p.drop (p.length - (cs + 1) / 2)).reverse) w failed with
    | .ok (new', q, failed') => phase2 C dc I cs new' (p.take (p.length - (cs + 1) / 2) ++ q) ws failed'
    | .throws => .throws
    | .ub => .ub

/-- InsertionSortCollider.cpp:71, 77 -/
def chunkSize (size n : Nat) : Nat := size / n + 1

/-- InsertionSortCollider.cpp:69–79: number of chunks, from `n` downwards; `narrow n` says that some of `n` chunks are
narrower than the verlet distance. The test reads the first bound of every chunk. -/
def chunkLoop (size : Nat) (narrow : Nat → Bool) : Nat → Res Nat
  | 0 => .ok 0
  | 1 => .ok 1
  | n + 2 => if (n + 1) * chunkSize size (n + 2) < size then
      if narrow (n + 2) then chunkLoop size narrow (n + 1) else .ok (n + 2)
    else .ub

/-- InsertionSortCollider.cpp:138–141 -/
def insAll (I : Ints) : List (Nat × Nat) → Ints
  | [] => I
  | p :: ps => insAll (ins I p.1 p.2) ps

/-- InsertionSortCollider.cpp:59–145 `insertionSortParallel` -/
def insertionSortParallel (C : Cx R) (dc : Bool) (threads : Nat) (narrow : Nat → Bool) (I : Ints) (v : List (Bd R)) :
    Res (Ints × List (Bd R)) :=
  if threads ≤ 1 then insertionSort C dc I v
  else match chunkLoop v.length narrow threads with
    | .ok n =>
      let cs := chunkSize v.length n
      match phase1 C dc I cs (n - 1) [] v with
      | .ok (new, []) => .ok (insAll I new, [])
      | .ok (new, w :: ws) => match phase2 C dc I cs new w ws false with
        | .ok (new', v', failed) =>
          if failed then insertionSort C dc (insAll I new') v' else .ok (insAll I new', v')
        | .throws => .throws
        | .ub => .ub
      | .throws => .throws
      | .ub => .ub
    | .throws => .throws
    | .ub => .ub

/-! ## Initial sweep -/

/-- InsertionSortCollider.cpp:363–376: from the bound after the lower bound of `x` up to the next bound of the same body -/
def sweepFrom (C : Cx R) (x : Bd R) : Ints → List (Bd R) → Res Ints
  | I, [] => .ok I
  | I, y :: ys =>
    if y.id = x.id then .ok I
    else if y.isMin && y.hasBB then
      match wanted C x.id y.id with
      | .ok true => sweepFrom C x (ins I x.id y.id) ys
      | .ok false => sweepFrom C x I ys
      | .throws => .throws
      | .ub => .ub
    else sweepFrom C x I ys

/-- InsertionSortCollider.cpp:357–382: candidates are collected by threads and inserted afterwards if not found; here they are
inserted at once -/
def sweep (C : Cx R) : Ints → List (Bd R) → Res Ints
  | I, [] => .ok I
  | I, x :: xs =>
    if x.isMin && x.hasBB then
      match sweepFrom C x I xs with
      | .ok I' => sweep C I' xs
      | .throws => .throws
      | .ub => .ub
    else sweep C I xs

/-! ## The whole run -/

/-- persistent data of the collider: `BB[j].vec`, the cached `BB[0].size`, `minima` and `maxima` with their length divided by
3, `periodic`, the attributes `doSort`, `sortThenCollide`, `sortAxis` -/
structure Col (R : Type) where
  vec : Fin 3 → List (Bd R)
  size : Nat
  mn : Nat → Fin 3 → R
  mx : Nat → Fin 3 → R
  nmm : Nat
  periodic : Bool
  doSort : Bool
  sortThenCollide : Bool
  sortAxis : Fin 3

/-- InsertionSortCollider.cpp:224: bounds for the ids `a, a+1, …` (`k` of them) -/
def newBounds (a : Nat) : Nat → List (Bd R)
  | 0 => []
  | k + 1 => ⟨0, a, true, false⟩ :: ⟨0, a, false, false⟩ :: newBounds (a + 1) k

/-- InsertionSortCollider.cpp:200–203: the scene is not periodic any more -/
def dropPeriodic (c : Col R) : Col R := if c.periodic then { c with vec := fun _ => [], periodic := false } else c

/-- InsertionSortCollider.cpp:211–227 -/
def resize (c : Col R) (n : Nat) : Col R × Bool :=
  if c.size ≠ 2 * n then
    let vec0 := if 2 * n < c.size then (fun _ => []) else c.vec
    let vec := fun j => vec0 j ++ newBounds (c.size / 2) (n - c.size / 2)
    ({ c with vec := vec, size := (vec 0).length }, decide ((2 * n : Int) - c.size > 200) || decide (c.size = 0))
  else (c, false)

/-- InsertionSortCollider.cpp:301, 309 for one bound -/
def copyBd (S : Scn R) (j : Fin 3) (x : Bd R) : Bd R :=
  match S.body x.id with
  | some b => match b.bound with
    | some bb => { x with coord := if x.isMin then bb.1 j else bb.2 j, hasBB := true }
    | none => { x with coord := b.pos j, hasBB := false }
  | none => { x with hasBB := false }

/-- InsertionSortCollider.cpp:306–308: which box is copied for the bound -/
def boxOf (S : Scn R) (x : Bd R) : Option ((Fin 3 → R) × (Fin 3 → R)) :=
  if x.isMin then match S.body x.id with
    | some b => b.bound
    | none => none
  else none

def updM {R : Type} (f : Nat → Fin 3 → R) (i : Nat) (v : Fin 3 → R) : Nat → Fin 3 → R := fun k => if k = i then v else f k

/-- InsertionSortCollider.cpp:306–308 over the list of axis 1 -/
def copyBoxes (S : Scn R) : List (Bd R) → (Nat → Fin 3 → R) × (Nat → Fin 3 → R) → (Nat → Fin 3 → R) × (Nat → Fin 3 → R)
  | [], m => m
  | x :: xs, m => match boxOf S x with
    | some bb => copyBoxes S xs (updM m.1 x.id bb.1, updM m.2 x.id bb.2)
    | none => copyBoxes S xs m

/-- InsertionSortCollider.cpp:290–311: `BB[j][i]` for `i<2*nBodies` is undefined if the list is shorter -/
def copy (S : Scn R) (c : Col R) : Res (Col R) :=
  if (∀ j, 2 * S.n ≤ (c.vec j).length) then
    let m := copyBoxes S (c.vec 1) (c.mn, c.mx)
    .ok { c with vec := fun j => (c.vec j).map (copyBd S j), mn := m.1, mx := m.2 }
  else .ub

/-- InsertionSortCollider.hpp:160–163 `shouldBeErased` in `conditionalyEraseNonReal` (C07: exactly the non-real interactions for
which it holds are removed) -/
def condErase (C : Cx R) (I : Ints) : Res Ints :=
  if I.all (fun e => e.real || (decide (e.a < C.nmm) && decide (e.b < C.nmm))) then
    .ok (I.filter (fun e => e.real || overlap C e.a e.b))
  else .ub

/-- sort the three axes one after the other -/
def sort3 (f : Ints → List (Bd R) → Res (Ints × List (Bd R))) (I : Ints) (v : Fin 3 → List (Bd R)) :
    Res (Ints × (Fin 3 → List (Bd R))) :=
  match f I (v 0) with
  | .ok (I0, v0) => match f I0 (v 1) with
    | .ok (I1, v1) => match f I1 (v 2) with
      | .ok (I2, v2) => .ok (I2, fun j => if j = 0 then v0 else if j = 1 then v1 else v2)
      | .throws => .throws
      | .ub => .ub
    | .throws => .throws
    | .ub => .ub
  | .throws => .throws
  | .ub => .ub

/-- the context of the sorting routines -/
def cxOf (S : Scn R) (c : Col R) : Cx R := ⟨S, c.mn, c.mx, c.nmm⟩

/-- parameters of a run: `std::sort`, number of threads, chunk decision -/
structure Par (R : Type) where
  srt : List (Bd R) → List (Bd R)
  threads : Nat
  narrow : Nat → Bool

/-- InsertionSortCollider.cpp:320–396 (non-periodic) -/
def sortCollide (P : Par R) (S : Scn R) (c : Col R) (init : Bool) (I : Ints) : Res (Col R × Ints) :=
  let C := cxOf S c
  if !init && !c.sortThenCollide then
    match sort3 (if P.threads ≤ 1 ∨ S.n < 1000 then insertionSort C true else insertionSortParallel C true P.threads P.narrow)
        I c.vec with
    | .ok (I', v) => .ok ({ c with vec := v }, I')
    | .throws => .throws
    | .ub => .ub
  else
    match (if init then .ok (I, fun j => P.srt (c.vec j)) else sort3 (insertionSort C false) I c.vec) with
    | .ok (I', v) => match sweep C I' (v c.sortAxis) with
      | .ok I'' => .ok ({ c with vec := v }, I'')
      | .throws => .throws
      | .ub => .ub
    | .throws => .throws
    | .ub => .ub

/-- InsertionSortCollider.cpp:187–398 `action` in a non-periodic scene; `dirty` is `interactions->dirty` -/
def action (P : Par R) (S : Scn R) (dirty : Bool) (c : Col R) (I : Ints) : Res (Col R × Ints) :=
  let c0 := dropPeriodic c
  let r := resize c0 S.n
  let init := c.doSort || r.2 || dirty
  let c1 := { r.1 with nmm := S.n, doSort := false }
  match copy S c1 with
  | .ok c2 => match condErase (cxOf S c2) I with
    | .ok I' => sortCollide P S c2 init I'
    | .throws => .throws
    | .ub => .ub
  | .throws => .throws
  | .ub => .ub

end Verif.Collide
