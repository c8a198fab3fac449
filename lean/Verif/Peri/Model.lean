import Verif.Collide.Model
import Mathlib.Algebra.Order.Floor.Ring
import Mathlib.Algebra.Order.Field.Basic
/-!
# Model of periodic coordinates in the collider

Transcribes the periodic parts of `pkg/common/InsertionSortCollider.{hpp,cpp}` and the wrapping of
coordinates of `core/Cell.hpp`: `wrapNum`, `cellWrap`, `cellWrapRel`, `spatialOverlapPeri`,
`handleBoundInversionPeri`, the copying of the bounds, `insertionSortPeri` and the initial sweep.

Simplifications:
* coordinates are elements of any ordered field `R` with a floor (no rounding, no NaN or infinity);
* the conversions from `Real` to `int` are undefined outside 32 bits, the arithmetic on `int` periods is
  otherwise unbounded;
* the loops of the sort run on fuel: the result is `none` if the fuel does not suffice.
-/
namespace Verif.Peri
open Verif Verif.Collide

variable {R : Type} [Field R] [LinearOrder R] [IsStrictOrderedRing R] [FloorRing R]

/-- conversion of a `Real` holding an integer to a 32 bit `int`: undefined if it does not fit -/
def toInt (z : Int) : Res Int := if -2 ^ 31 ≤ z ∧ z < 2 ^ 31 then .ok z else .ub

/-! ## Wrapping -/

/-- core/Cell.hpp 85–86 `wrapNum(x,sz)` -/
def wrapNum (x sz : R) : R := (x / sz - ⌊x / sz⌋) * sz

/-- core/Cell.hpp 88–89 `wrapNum(x,sz,period)` -/
def wrapNumP (x sz : R) : Res (R × Int) :=
  (toInt ⌊x / sz⌋).bind fun p => .ok ((x / sz - p) * sz, p)

/-- InsertionSortCollider.cpp 402–406 `cellWrap` -/
def cellWrap (x x0 x1 : R) : Res (R × Int) :=
  (toInt ⌊(x - x0) / (x1 - x0)⌋).bind fun p => .ok (x0 + ((x - x0) / (x1 - x0) - p) * (x1 - x0), p)

/-- InsertionSortCollider.cpp 409–412 `cellWrapRel` -/
def cellWrapRel (x x0 x1 : R) : R := ((x - x0) / (x1 - x0) - ⌊(x - x0) / (x1 - x0)⌋) * (x1 - x0)

/-! ## The overlap test -/

/-- what the periodic test reads: scene, `minima`, `maxima`, their length divided by 3, `invSizes`
(InsertionSortCollider.hpp 127–131, .cpp 238), `overlapTolerance`, `allowBiggerThanPeriod` -/
structure PCx (R : Type) where
  S : Scn R
  mn : Nat → Fin 3 → R
  mx : Nat → Fin 3 → R
  nmm : Nat
  inv : Fin 3 → R
  tol : R
  big : Bool

/-- InsertionSortCollider.cpp 489–511, one axis of `spatialOverlapPeri`: the value written to
`periods[axis]`, `none` for `return false` -/
def overlapAxis (C : PCx R) (i j : Nat) (a : Fin 3) : Res (Option Int) :=
  let lmin := (C.mn j a - C.mx i a) * C.inv a
  let lmax := (C.mx j a - C.mx i a) * C.inv a
  let smin := (C.mn i a - C.mx i a) * C.inv a + 1
  if 1 / 2 < lmax - lmin ∨ smin < 0 then
    if C.big then .ok (some 0) else .throws
  else
    (toInt ⌊lmax⌋).bind fun p =>
      if lmin - p ≤ C.tol then (toInt (-p)).bind fun q => .ok (some q)
      else if lmax - p + C.tol ≥ smin then (toInt (-p - 1)).bind fun q => .ok (some q)
      else .ok none

/-- InsertionSortCollider.cpp 486–514 `spatialOverlapPeri`: the shift if the boxes overlap; reading outside
`minima`, `maxima` is undefined -/
def overlapPeri (C : PCx R) (i j : Nat) : Res (Option (Fin 3 → Int)) :=
  if i < C.nmm ∧ j < C.nmm then
    (overlapAxis C i j 0).bind fun
      | none => .ok none
      | some x => (overlapAxis C i j 1).bind fun
        | none => .ok none
        | some y => (overlapAxis C i j 2).bind fun
          | none => .ok none
          | some z => .ok (some (fun a => if a = 0 then x else if a = 1 then y else z))
  else .ub

/-! ## Interactions -/

/-- an interaction with `cellDist`, core/Interaction.hpp -/
structure PEnt where
  a : Nat
  b : Nat
  real : Bool
  dist : Fin 3 → Int

abbrev PInts := List PEnt

/-- the entry is for the unordered pair `i j` -/
def PEnt.is (e : PEnt) (i j : Nat) : Bool := (decide (e.a = i) && decide (e.b = j)) || (decide (e.a = j) && decide (e.b = i))

/-- InteractionContainer `found` (C06) -/
def pfound (I : PInts) (i j : Nat) : Bool := I.any (fun e => e.is i j)

/-- InsertionSortCollider.cpp 464–474 `handleBoundInversionPeri` -/
def handlePeri (C : PCx R) (I : PInts) (i j : Nat) : Res PInts :=
  if pfound I i j then .ok I
  else (overlapPeri C i j).bind fun
    | none => .ok I
    | some d => (mayCollide C.S.avoid C.S.sub (fltOf C.S i) (fltOf C.S j)).bind fun
      | true => .ok (I ++ [⟨i, j, false, d⟩])
      | false => .ok I

/-- InteractionContainer.hpp 111–123 `conditionalyEraseNonReal` with InsertionSortCollider.hpp 160–163
`shouldBeErased` (as a filter; C07) -/
def condErasePeri (C : PCx R) : PInts → Res PInts
  | [] => .ok []
  | e :: I =>
    if e.real then (condErasePeri C I).bind fun I' => .ok (e :: I')
    else (overlapPeri C e.a e.b).bind fun
      | none => condErasePeri C I
      | some _ => (condErasePeri C I).bind fun I' => .ok (e :: I')

/-! ## Bounds with a period -/

/-- InsertionSortCollider.hpp 79–88 `Bounds` -/
structure PBd (R : Type) where
  coord : R
  id : Nat
  isMin : Bool
  hasBB : Bool
  period : Int

/-- InsertionSortCollider.hpp 103–117 `VecBounds` -/
structure VB (R : Type) where
  size : Nat
  v : Nat → PBd R
  lo : Nat
  dim : R

/-- InsertionSortCollider.cpp 293–297, one axis: the coordinate of a bound in space -/
def spaceCoord (b : CBody R) (isMin : Bool) (a : Fin 3) : R :=
  match b.bound with
  | some (lo, hi) => if isMin then lo a else hi a
  | none => b.pos a

/-- InsertionSortCollider.cpp 284–305: copying one bound of axis `a` in a periodic scene; `init` is `doInitSort` -/
def copyPeri (S : Scn R) (a : Fin 3) (dim : R) (init : Bool) (x : PBd R) : Res (PBd R) :=
  match S.body x.id with
  | none => .ok { x with hasBB := false }
  | some b =>
    let c := spaceCoord b x.isMin a - dim * x.period
    if init then
      (cellWrap c 0 dim).bind fun r => .ok { x with hasBB := b.bound.isSome, coord := r.1, period := r.2 }
    else .ok { x with hasBB := b.bound.isSome, coord := c }

/-- InsertionSortCollider.hpp 115 `norm`; division by zero for an empty container -/
def norm (n : Nat) (i : Int) : Nat := ((if i < 0 then i + n else i) % n).toNat

/-- replaces one bound -/
def VB.set (s : VB R) (k : Nat) (x : PBd R) : VB R := { s with v := fun i => if i = k then x else s.v i }

/-- InsertionSortCollider.cpp 425: switching the period of the element just above the split -/
def switchLo (s : VB R) (i : Nat) : VB R :=
  if i = s.lo ∧ (s.v i).coord < 0 then
    { s.set i { s.v i with period := (s.v i).period - 1, coord := (s.v i).coord + s.dim } with lo := norm s.size (s.lo + 1) }
  else s

/-- InsertionSortCollider.cpp 438: the condition of the inner loop -/
def goesOn (s : VB R) (top : Nat) (vi : PBd R) (j : Nat) : Bool :=
  decide (j < top) && decide ((s.v j).coord > vi.coord + (if norm s.size (j + 1) = s.lo then s.dim else 0))

/-- InsertionSortCollider.cpp 448–452: the element at `j` moves up, with care at the split -/
def shiftUp (s : VB R) (vi : PBd R) (j : Nat) : VB R × PBd R :=
  let j1 := norm s.size (j + 1)
  let s' := s.set j1 (s.v j)
  if j = s.lo ∧ vi.coord < 0 then
    ({ s' with lo := norm s.size (s.lo + 1) }, { vi with period := vi.period - 1, coord := vi.coord + s.dim })
  else if j1 = s.lo then
    ({ s.set j1 { s.v j with period := (s.v j).period + 1, coord := (s.v j).coord - s.dim } with lo := norm s.size (s.lo - 1) }, vi)
  else (s', vi)

/-- InsertionSortCollider.cpp 453–454: the pair is handled if its lower bound passes an upper bound.  After the
move up `v[j]` still holds the element (`j1 ≠ j` as there are at least two bounds). -/
def passPeri (C : PCx R) (dc : Bool) (I : PInts) (vi vj : PBd R) : Res PInts :=
  if vi.isMin && !vj.isMin && dc && vi.hasBB && vj.hasBB && decide (vi.id ≠ vj.id) then handlePeri C I vi.id vj.id
  else .ok I

/-- sequencing of computations on fuel that may throw -/
def obind {α β : Type} (r : Option (Res α)) (f : α → Option (Res β)) : Option (Res β) :=
  match r with
  | none => none
  | some (.ok a) => f a
  | some .throws => some .throws
  | some .ub => some .ub

/-- InsertionSortCollider.cpp 434–457: the inner loop and the final placement of the travelling element -/
def travel (C : PCx R) (dc : Bool) (top : Nat) : Nat → VB R → PBd R → Nat → PInts → Option (Res (VB R × PInts))
  | 0, _, _, _, _ => none
  | fuel + 1, s, vi, j, I =>
    if goesOn s top vi j then
      obind (some (passPeri C dc I vi (s.v j))) fun I' =>
        travel C dc top fuel (shiftUp s vi j).1 (shiftUp s vi j).2 (norm s.size (j - 1)) I'
    else some (.ok (s.set (norm s.size (j + 1)) vi, I))

/-- InsertionSortCollider.cpp 431: no inversion at index `i` -/
def inOrder (s : VB R) (i : Nat) : Bool :=
  decide ((s.v (norm s.size (i - 1))).coord ≤ (s.v i).coord + (if i = s.lo then s.dim else 0))

/-- InsertionSortCollider.cpp 421: the condition of the outer loop for `_i = k` -/
def outerGoesOn (s : VB R) (k : Nat) : Bool :=
  decide (k < s.size) || decide ((s.v (norm s.size k)).coord < (s.v (norm s.size (k - 1))).coord)

/-- InsertionSortCollider.cpp 421–458: the outer loop from the index `k` (`_i`) on -/
def outer (C : PCx R) (dc : Bool) : Nat → VB R → Nat → PInts → Option (Res (VB R × PInts))
  | 0, _, _, _ => none
  | fuel + 1, s, k, I =>
    if outerGoesOn s k then
      let i := norm s.size k
      let s := switchLo s i
      if inOrder s i then outer C dc fuel s (k + 1) I
      else obind (travel C dc k fuel s (s.v i) (norm s.size (i - 1)) I) fun r => outer C dc fuel r.1 (k + 1) r.2
    else some (.ok (s, I))

/-- InsertionSortCollider.cpp 460: values above the cell are taken down by one period -/
def clampTop : Nat → VB R → Nat → Option (Res (VB R))
  | 0, _, _ => none
  | fuel + 1, s, i =>
    if (s.v i).coord > s.dim then
      clampTop fuel { s.set i { s.v i with period := (s.v i).period + 1, coord := (s.v i).coord - s.dim } with lo := i }
        (norm s.size (i - 1))
    else some (.ok s)

/-- InsertionSortCollider.cpp 417–461 `insertionSortPeri`; an empty container is divided by (`norm`, hpp 118) -/
def insertionSortPeri (C : PCx R) (dc : Bool) (fuel : Nat) (s : VB R) (I : PInts) : Option (Res (VB R × PInts)) :=
  if s.size = 0 then some .ub
  else obind (outer C dc fuel s 0 I) fun r =>
    obind (clampTop fuel r.1 (norm r.1.size (r.1.lo - 1))) fun s => some (.ok (s, r.2))

/-- InsertionSortCollider.cpp 389–393: the inner loop of the periodic sweep, from the bound at `j` on -/
def sweepFrom (C : PCx R) (s : VB R) (iid : Nat) : Nat → Nat → PInts → Option (Res PInts)
  | 0, _, _ => none
  | fuel + 1, j, I =>
    if (s.v j).id = iid then some (.ok I)
    else if (s.v j).isMin && (s.v j).hasBB then
      obind (some (handlePeri C I iid (s.v j).id)) fun I' => sweepFrom C s iid fuel (norm s.size (j + 1)) I'
    else sweepFrom C s iid fuel (norm s.size (j + 1)) I

/-- InsertionSortCollider.cpp 385–394: the periodic sweep over `k` bounds from `i` on -/
def sweepPeri (C : PCx R) (s : VB R) (fuel : Nat) : Nat → Nat → PInts → Option (Res PInts)
  | 0, _, I => some (.ok I)
  | k + 1, i, I =>
    if (s.v i).isMin && (s.v i).hasBB then
      obind (sweepFrom C s (s.v i).id fuel (norm s.size (i + 1)) I) fun I' => sweepPeri C s fuel k (i + 1) I'
    else sweepPeri C s fuel k (i + 1) I

/-! ## The whole run -/

/-- persistent data of the collider, InsertionSortCollider.hpp 104–130: the bounds with `loIdx` (`size` of `VB` is the length of
the vector), the cached `BB[0].size`, `minima` and `maxima`, the attributes `doSort`, `sortThenCollide`, `sortAxis` -/
structure PCol (R : Type) where
  bb : Fin 3 → VB R
  size : Nat
  mn : Nat → Fin 3 → R
  mx : Nat → Fin 3 → R
  periodic : Bool
  doSort : Bool
  sortThenCollide : Bool
  sortAxis : Fin 3

/-- parameters of a run: `std::sort` on a vector of bounds, cell sizes, `overlapTolerance`, `allowBiggerThanPeriod` -/
structure PPar (R : Type) where
  srt : Nat → (Nat → PBd R) → Nat → PBd R
  dim : Fin 3 → R
  tol : R
  big : Bool

/-- InsertionSortCollider.cpp 200–203: the scene became periodic -/
def toPeriodic (c : PCol R) : PCol R :=
  if c.periodic then c else { c with bb := fun a => { c.bb a with size := 0 }, periodic := true }

/-- InsertionSortCollider.cpp 224: two bounds for each of the `m` ids from `first` on are added -/
def addBounds (s : VB R) (first m : Nat) : VB R :=
  { s with
    size := s.size + 2 * m
    v := fun k => if k < s.size then s.v k else ⟨0, first + (k - s.size) / 2, (k - s.size) % 2 == 0, false, 0⟩ }

/-- InsertionSortCollider.cpp 211–227 -/
def resizePeri (c : PCol R) (n : Nat) : PCol R × Bool :=
  if c.size ≠ 2 * n then
    let bb0 := fun a => if 2 * n < c.size then { c.bb a with size := 0 } else c.bb a
    let bb := fun a => addBounds (bb0 a) (c.size / 2) (n - c.size / 2)
    ({ c with bb := bb, size := (bb 0).size }, decide ((2 * n : Int) - c.size > 200) || decide (c.size = 0))
  else (c, false)

/-- whether an outcome is normal -/
def _root_.Verif.Res.isOk {α : Type} : Res α → Bool
  | .ok _ => true
  | _ => false

/-- the value of a normal outcome -/
def _root_.Verif.Res.getD {α : Type} (d : α) : Res α → α
  | .ok a => a
  | _ => d

/-- a total map of bounds that may be undefined -/
def mapRes (f : PBd R → Res (PBd R)) (n : Nat) (v : Nat → PBd R) : Res (Nat → PBd R) :=
  if ∀ k, k < n → (f (v k)).isOk = true then .ok fun k => if k < n then (f (v k)).getD (v k) else v k else .ub

/-- InsertionSortCollider.cpp 290–311 for the bounds of one axis: reading past the vector is undefined -/
def copyAxis (S : Scn R) (P : PPar R) (init : Bool) (a : Fin 3) (s : VB R) : Res (VB R) :=
  if 2 * S.n ≤ s.size then
    (mapRes (copyPeri S a (P.dim a) init) (2 * S.n) s.v).bind fun v => .ok { s with v := v, dim := P.dim a }
  else .ub

/-- InsertionSortCollider.cpp 306–308: boxes are copied to `minima`, `maxima`.  (Done for every body as each has a lower bound in
the list of axis 1.) -/
def boxLo (S : Scn R) (old : Nat → Fin 3 → R) (i : Nat) : Fin 3 → R :=
  match (S.body i).bind (·.bound) with
  | some b => b.1
  | none => old i

/-- as `boxLo`, for `maxima` -/
def boxHi (S : Scn R) (old : Nat → Fin 3 → R) (i : Nat) : Fin 3 → R :=
  match (S.body i).bind (·.bound) with
  | some b => b.2
  | none => old i

/-- what the tests read, InsertionSortCollider.cpp 238 -/
def pcx (S : Scn R) (P : PPar R) (mn mx : Nat → Fin 3 → R) : PCx R := ⟨S, mn, mx, S.n, fun a => 1 / P.dim a, P.tol, P.big⟩

/-- does `f` for the three axes in turn -/
def axes3 {I : Type} (f : Fin 3 → VB R → I → Option (Res (VB R × I))) (bb : Fin 3 → VB R) (I0 : I) :
    Option (Res ((Fin 3 → VB R) × I)) :=
  obind (f 0 (bb 0) I0) fun r0 => obind (f 1 (bb 1) r0.2) fun r1 => obind (f 2 (bb 2) r1.2) fun r2 =>
    some (.ok (fun a => if a = 0 then r0.1 else if a = 1 then r1.1 else r2.1, r2.2))

/-- InsertionSortCollider.cpp 320–396 in a periodic scene -/
def sortCollidePeri (P : PPar R) (S : Scn R) (fuel : Nat) (c : PCol R) (init : Bool) (I : PInts) : Option (Res (PCol R × PInts)) :=
  let C := pcx S P c.mn c.mx
  if !init && !c.sortThenCollide then
    obind (axes3 (fun _ s I => insertionSortPeri C true fuel s I) c.bb I) fun r => some (.ok ({ c with bb := r.1 }, r.2))
  else
    obind (if init then some (.ok (fun a => { c.bb a with lo := 0, v := P.srt (c.bb a).size (c.bb a).v }, I))
        else axes3 (fun _ s I => insertionSortPeri C false fuel s I) c.bb I) fun r =>
      obind (sweepPeri C (r.1 c.sortAxis) fuel (2 * S.n) 0 r.2) fun I' => some (.ok ({ c with bb := r.1 }, I'))

/-- InsertionSortCollider.cpp 187–398 `action` in a periodic scene; `dirty` is `interactions->dirty` -/
def actionPeri (P : PPar R) (S : Scn R) (fuel : Nat) (dirty : Bool) (c : PCol R) (I : PInts) : Option (Res (PCol R × PInts)) :=
  let r := resizePeri (toPeriodic c) S.n
  let init := c.doSort || r.2 || dirty
  let mn := boxLo S r.1.mn
  let mx := boxHi S r.1.mx
  obind (axes3 (fun a s _ => some ((copyAxis S P init a s).bind fun s => .ok (s, ()))) r.1.bb ()) fun b =>
    obind (some (condErasePeri (pcx S P mn mx) I)) fun I' =>
      sortCollidePeri P S fuel { r.1 with bb := b.1, mn := mn, mx := mx, doSort := false } init I'

end Verif.Peri
