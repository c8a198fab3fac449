import Verif.Collide.Model
import Mathlib.Algebra.Order.Field.Basic
import Mathlib.Tactic.Linarith
/-!
# Splitting a scene between processes

Transcribes the part of `py/mpy.py` that decides which bodies a process shares with which other process (`splitScene` 400–514,
`unboundRemoteBodies` 132–139, `updateDomainBounds` 149–184, `maskedPFacet` 197–207, `maskedConnection` 209–219, `genLocalIntersections`
221–271, `reboundRemoteBodies` 141–147) with the boxes of subdomains (`core/Subdomain.cpp` 20–34 `setMinMax`, 76–87
`Bo1_Subdomain_Aabb::go`).

At that moment every process holds the whole scene (master: its own; workers: the copy just received, line 437), so one scene describes
all of them; they differ in the boxes they compute.  Each process runs the bound dispatcher once (line 457), exchanges the corners of the
subdomains, then runs the collider (line 459), which dispatches the bounds again in the same iteration: now the sweep length is
`verletDist` for every bound (`Dispatching.cpp` 41–50, see `newSweep` in `Verif/Stride/Model.lean` with `last = iter`).

Simplifications:
* the scene is not periodic (`Bo1_Subdomain_Aabb` has no periodic version);
* the interactions left by the collider are a list in unspecified order; what is in it is stated by `IsIntrs` (C25, C26, C27 for the
  collider; interactions of subdomains are never real, so none is restored from the received scene, InteractionContainer.cpp 133–139);
* an empty subdomain has the corners +∞, −∞, here: no box;
* interactions are between existing bodies, so `O.bodies[otherId]` is never `None` here.
-/
namespace Verif.Mpi.Split
open Verif Verif.Collide

/-- lower and upper corner -/
abbrev Box (R : Type) := (Fin 3 → R) × (Fin 3 → R)

/-- what the split reads of a body: the attributes of the pair filter (among them `subdomain` and `isSubdomain`), the box its functor
gives in the process owning it (`none`: `bounded=False`, a clump, a shape without functor), for a `PFacet` or `GridConnection` the ids of
its nodes and connections, whether it is a `GridNode` -/
structure SB (R : Type) where
  flt : Flt
  box : Option (Box R)
  parts : Option (List Nat)
  gridNode : Bool

/-- the scene: number of processes, bodies by id, the body of subdomain `k` (mpy.py 414–417), `Subdomain.ids` of subdomain `k`,
sweep length of a body in the dispatch of line 457, `verletDist`, `Collider.avoidSelfInteractionMask` -/
structure Sc (R : Type) where
  n : Nat
  body : Nat → Option (SB R)
  sd : Nat → Nat
  ids : Nat → List Nat
  first : Nat → R
  verlet : R
  avoid : Nat

variable {R : Type} [Field R] [LinearOrder R]

/-- Dispatching.cpp 53–57: the box enlarged by the sweep length if that is positive -/
def swept (bx : Box R) (l : R) : Box R := if 0 < l then (fun a => bx.1 a - l, fun a => bx.2 a + l) else bx

/-- componentwise smallest and largest corner, core/Subdomain.cpp 30–31 -/
def join (x y : Box R) : Box R := (fun a => min (x.1 a) (y.1 a), fun a => max (x.2 a) (y.2 a))

/-- core/Subdomain.cpp 25–32: the box around a list of boxes -/
def hull : List (Box R) → Option (Box R)
  | [] => none
  | x :: l => match hull l with
    | none => some x
    | some y => some (join x y)

/-- core/Subdomain.cpp 20–34 `setMinMax` in process `k` after mpy.py 456–457: only the bodies of the process itself have boxes -/
def corners (S : Sc R) (k : Nat) : Option (Box R) :=
  hull ((S.ids k).filterMap fun i => (S.body i).bind fun b =>
    if b.flt.sub = k ∧ b.flt.isSub = false then b.box.map fun x => swept x (S.first i) else none)

/-- the box of body `i` in process `p` after the dispatch by the collider (mpy.py 459): bodies of other processes have none (mpy.py
136–139), a subdomain has the box around its bodies as received from its process (mpy.py 181), all enlarged by `verletDist` -/
def boxAt (S : Sc R) (p i : Nat) : Option (Box R) :=
  match S.body i with
  | none => none
  | some b =>
    if b.flt.isSub then (corners S b.flt.sub.toNat).map fun x => swept x S.verlet
    else if b.flt.sub = p then b.box.map fun x => swept x S.verlet
    else none

/-- InsertionSortCollider.hpp `spatialOverlap` -/
def Meet (x y : Box R) : Prop := ∀ a, x.1 a ≤ y.2 a ∧ y.1 a ≤ x.2 a

/-- the boxes overlap by more than a common face: the collider finds such pairs for certain (C25, C26) -/
def Overlap (x y : Box R) : Prop := ∀ a, x.1 a < y.2 a ∧ y.1 a < x.2 a

/-- bodies `i`, `j` may collide in process `p` and their boxes there are related by `rel` -/
def Near (rel : Box R → Box R → Prop) (S : Sc R) (p i j : Nat) : Prop :=
  i ≠ j ∧ ∃ a b x y, S.body i = some a ∧ S.body j = some b ∧ boxAt S p i = some x ∧ boxAt S p j = some y ∧ rel x y ∧
    Collide.filter S.avoid p a.flt b.flt = true

/-- the same interaction, core/InteractionContainer.cpp: interactions are between unordered pairs -/
def Same (e f : Nat × Nat) : Prop := e = f ∨ (e.1 = f.2 ∧ e.2 = f.1)

/-- there is an interaction between `i` and `j` -/
def Joined (L : List (Nat × Nat)) (i j : Nat) : Prop := (i, j) ∈ L ∨ (j, i) ∈ L

/-- `O.interactions` of process `p` after mpy.py 459, as far as subdomains are concerned: at most one for each pair, one for each pair
with overlapping boxes, none for pairs without a common point (if they just touch, it depends on the order in which equal coordinates
were sorted) -/
structure IsIntrs (S : Sc R) (p : Nat) (L : List (Nat × Nat)) : Prop where
  distinct : L.Pairwise fun e f => ¬ Same e f
  complete : ∀ i k, 1 ≤ k → k < S.n → Near Overlap S p i (S.sd k) → Joined L i (S.sd k)
  sound : ∀ i k, 1 ≤ k → k < S.n → Joined L i (S.sd k) → Near Meet S p i (S.sd k)

/-- mpy.py 203–206, 215–218: those of `l` not marked, which are then marked -/
def masked : List Nat → (Nat → Bool) → List Nat × (Nat → Bool)
  | [], ap => ([], ap)
  | i :: l, ap =>
    if ap i then masked l ap
    else
      let r := masked l fun j => if j = i then true else ap j
      (i :: r.1, r.2)

/-- mpy.py 245–250, 260–265: what is listed for body `o`: itself, or with its nodes and connections if not listed yet -/
def items (o : Nat) (b : SB R) (ap : Nat → Bool) : List Nat × (Nat → Bool) :=
  match b.parts with
  | some l => masked (o :: l) ap
  | none => ([o], ap)

/-- function update -/
def upd (f : Nat → List Nat) (k : Nat) (l : List Nat) : Nat → List Nat := fun x => if x = k then l else f x

/-- mpy.py 242, 255 `otherId` -/
def other (s : Nat) (e : Nat × Nat) : Nat := if e.2 = s then e.1 else e.2

/-- mpy.py 241–250 (interactions of the own subdomain, `k = p`) and 254–265: one interaction of the subdomain `k` with body `s` -/
def intrStep (S : Sc R) (p s k : Nat) (st : (Nat → List Nat) × (Nat → Bool)) (e : Nat × Nat) : (Nat → List Nat) × (Nat → Bool) :=
  let o := other s e
  match S.body o with
  | none => st
  | some b =>
    if k = p then
      if b.flt.sub = 0 then
        let r := items o b st.2
        (upd st.1 0 (st.1 0 ++ r.1), r.2)
      else st
    else if b.flt.sub ≠ p then st                                       -- 257
    else if b.flt.isSub then (upd st.1 p (st.1 p ++ [k]), st.2)          -- 258
    else
      let r := items o b st.2
      (upd st.1 k (st.1 k ++ r.1), r.2)

/-- yadeWrapper.cpp 481 `withBodyAll` -/
def withBodyAll (L : List (Nat × Nat)) (s : Nat) : List (Nat × Nat) := L.filter fun e => e.1 = s ∨ e.2 = s

/-- mpy.py 236–269: one subdomain -/
def sdStep (S : Sc R) (p : Nat) (L : List (Nat × Nat)) (I : Nat → List Nat) (k : Nat) : Nat → List Nat :=
  let I' := ((withBodyAll L (S.sd k)).foldl (intrStep S p (S.sd k) k) (I, fun _ => false)).1
  if k = p then
    if I' 0 ≠ [] then upd I' k (I' k ++ [0]) else I'                     -- 251
  else if p = 0 ∧ I' k ≠ [] then upd I' 0 (I' 0 ++ [k])                  -- 268–269
  else I'

/-- ranks of the subdomains in the order of `subD.subdomains` (mpy.py 414–417) -/
def ranks (S : Sc R) : List Nat := (List.range (S.n - 1)).map (· + 1)

/-- mpy.py 221–271 `genLocalIntersections` -/
def genLocal (S : Sc R) (p : Nat) (L : List (Nat × Nat)) : Nat → List Nat := (ranks S).foldl (sdStep S p L) fun _ => []

/-- the lists of process `p` after mpy.py 477–488: a worker told by the master that bodies of the master are near lists rank 0 -/
def intersections (S : Sc R) (L : Nat → List (Nat × Nat)) (p : Nat) : Nat → List Nat :=
  let I := genLocal S p (L p)
  if p ≠ 0 ∧ genLocal S 0 (L 0) p ≠ [] ∧ 0 ∉ I p then upd I p (I p ++ [0]) else I

/-- `mirrorIntersections` of process `p` after mpy.py 467–514: what the others listed for `p`, received from the master and from the
workers listed by `p` -/
def mirror (S : Sc R) (L : Nat → List (Nat × Nat)) (p q : Nat) : List Nat :=
  if p = 0 then []
  else if q = 0 then genLocal S 0 (L 0) p
  else if q ∈ intersections S L p p then intersections S L q p
  else []

/-- the bodies `reboundRemoteBodies` is called for in process `p` (mpy.py 479, 514): those of all mirror lists -/
def rebound (S : Sc R) (L : Nat → List (Nat × Nat)) (p : Nat) : List Nat := (List.range S.n).flatMap (mirror S L p)

/-- mpy.py 136–139, 145–147: `bounded` of body `i` in process `p` when the erasing loop starts (`bounded0`: as set in the script) -/
def boundedAt (S : Sc R) (L : Nat → List (Nat × Nat)) (bounded0 : Nat → Bool) (p i : Nat) : Bool :=
  match S.body i with
  | none => false
  | some b =>
    if b.flt.isSub ∨ b.flt.sub = p then bounded0 i
    else decide (i ∈ rebound S L p) && !b.gridNode

end Verif.Mpi.Split
