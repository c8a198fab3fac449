import Verif.Base
import Mathlib.Algebra.Group.Defs
import Mathlib.Data.Nat.Notation

/-!
A distributed run (`mpy.mpirun`) next to an ordinary run (`O.run`): one iteration of the engines in
one process, the exchange of forces and states between processes, and the splitting and merging of
scenes between such iterations.

The contact law, the integrator and the time stepper are arbitrary functions, so that what is proved
holds for every choice of functors.  A body has a constant part `K` (shape, material, mass, …), the
part of its state that is exchanged between processes `M` (pos, vel, angVel, ori) and the remaining
part of its state `R` (angMom, attributes of classes derived from `State`).

Simplifications: no clumps, no grid nodes, no periodic cell, the collider is not run between a split and the
next merge (as in `mpirun`, which pauses or re-splits when it is activated), messages arrive in the
order of the programs (which is the subject of C116), floating point numbers are not modelled.
-/

namespace Verif.Dist

/-- `core/Body.hpp` 60-100: the body as far as engines use it here: its subdomain, constants, exchanged state, other state. -/
structure Body (K M R : Type) where
  sub : ℕ
  k : K
  m : M
  r : R

/-- `core/Interaction.hpp` 18-64: ids in the order in which they are stored and the contact (geometry, physics, history)
    if the interaction is real. -/
structure Intr (C : Type) where
  id1 : ℕ
  id2 : ℕ
  con : Option C

/-- `core/Scene.hpp` 35-116: the scene of one process.  `perm` are the permanent forces kept in `Scene::forces` (line 44),
    which is no attribute and so is not saved. -/
structure Scene (K M R C F T : Type) where
  rank : ℕ
  body : ℕ → Option (Body K M R)
  intrs : List (Intr C)
  perm : ℕ → F
  dt : T

/-- The functors and engines of the script: geometry, physics and law functors as one function of both bodies and the contact
    (`pkg/common/InteractionLoop.cpp` 105-166), the integrator (`pkg/dem/NewtonIntegrator.cpp` 133-200) and the time stepper
    (`core/TimeStepper.hpp` 18-24); a script without one has `stepper s = s.dt`. -/
structure Phys (K M R C F T : Type) where
  law : T → K → M → R → K → M → R → Option C → Option C × F × F
  newton : T → F → K → M → R → M × R
  stepper : Scene K M R C F T → T

section
variable {K M R C F T : Type} [AddCommMonoid F]

/-- `pkg/common/InteractionLoop.cpp` 73-166: one interaction in the loop: reset when a body has vanished (76-80) or when neither
    body belongs to the subdomain of the scene (81-84), otherwise geometry, physics and law. -/
def visit (p : Phys K M R C F T) (s : Scene K M R C F T) (I : Intr C) : Intr C × F × F :=
  match s.body I.id1, s.body I.id2 with
  | some b1, some b2 =>
    if s.rank ≠ b1.sub ∧ s.rank ≠ b2.sub then (⟨I.id1, I.id2, none⟩, 0, 0)
    else
      (⟨I.id1, I.id2, (p.law s.dt b1.k b1.m b1.r b2.k b2.m b2.r I.con).1⟩,
        (p.law s.dt b1.k b1.m b1.r b2.k b2.m b2.r I.con).2)
  | _, _ => (⟨I.id1, I.id2, none⟩, 0, 0)

/-- `core/ForceContainer.cpp` (`addForce`), from a law functor: adds a force to each body of the interaction. -/
def addPair (I : Intr C) (ff : F × F) (f : ℕ → F) : ℕ → F :=
  fun i => f i + ((if I.id1 = i then ff.1 else 0) + (if I.id2 = i then ff.2 else 0))

/-- `pkg/common/InteractionLoop.cpp` 62-167: forces added by the whole loop to the forces `f`. -/
def loopForces (p : Phys K M R C F T) (s : Scene K M R C F T) : List (Intr C) → (ℕ → F) → ℕ → F
  | [], f => f
  | I :: l, f => loopForces p s l (addPair I (visit p s I).2 f)

/-- `pkg/common/InteractionLoop.cpp` 62-167: the interactions after the loop. -/
def loopIntrs (p : Phys K M R C F T) (s : Scene K M R C F T) : List (Intr C) :=
  s.intrs.map fun I => (visit p s I).1

/-- `pkg/common/ForceResetter.hpp` 9-12 followed by the loop: forces (without permanent ones) on bodies after the loop. -/
def forces (p : Phys K M R C F T) (s : Scene K M R C F T) : ℕ → F :=
  loopForces p s s.intrs fun _ => 0

/-- `pkg/common/InteractionLoop.cpp` 22-168 and `core/TimeStepper.hpp` 19-21 (`action`): the scene before the integration. -/
def afterLoop (p : Phys K M R C F T) (s : Scene K M R C F T) : Scene K M R C F T :=
  { s with intrs := loopIntrs p s, dt := p.stepper { s with intrs := loopIntrs p s } }

/-- `pkg/dem/NewtonIntegrator.cpp` 87-200: every body of the subdomain of the scene is moved (line 131), with the permanent forces
    (`core/ForceContainer.cpp`, `sync`) added. -/
def newtonAll (p : Phys K M R C F T) (s : Scene K M R C F T) (f : ℕ → F) : Scene K M R C F T :=
  { s with body := fun i => (s.body i).map fun b =>
      if b.sub = s.rank then
        { b with m := (p.newton s.dt (f i + s.perm i) b.k b.m b.r).1, r := (p.newton s.dt (f i + s.perm i) b.k b.m b.r).2 }
      else b }

/-- `core/Scene.cpp` 71-130 with engines `ForceResetter, InteractionLoop, [TimeStepper,] NewtonIntegrator`: one iteration of an
    ordinary run. -/
def serialStep (p : Phys K M R C F T) (s : Scene K M R C F T) : Scene K M R C F T :=
  newtonAll p (afterLoop p s) (forces p s)

/-- `core/Subdomain.hpp` 163-190: for every rank the lists made by a split: `nbr w` is `intersections[w]` of `w`, `inter v w`
    is `intersections[w]` of `v`, `mir w v` is `mirrorIntersections[v]` of `w`. -/
structure Comm where
  nbr : ℕ → List ℕ
  inter : ℕ → ℕ → List ℕ
  mir : ℕ → ℕ → List ℕ

/-- `py/mpy.py` 113-116 (`receiveForces`): the master adds the forces of one message. -/
def addForces : List (ℕ × F) → (ℕ → F) → ℕ → F
  | [], f => f
  | a :: l, f => addForces l fun i => f i + (if a.1 = i then a.2 else 0)

/-- `py/mpy.py` 356-359 (`isendRecvForces`): the message of worker `w`. -/
def forceMsg (p : Phys K M R C F T) (c : Comm) (ss : ℕ → Scene K M R C F T) (w : ℕ) : List (ℕ × F) :=
  (c.mir w 0).map fun i => (i, forces p (ss w) i + (ss w).perm i)

/-- `py/mpy.py` 92-116 (`receiveForces`): the master adds the messages of the workers it is told to listen to. -/
def masterForces (p : Phys K M R C F T) (c : Comm) (ss : ℕ → Scene K M R C F T) : List ℕ → (ℕ → F) → ℕ → F
  | [], f => f
  | w :: l, f => masterForces p c ss l (addForces (forceMsg p c ss w) f)

/-- `py/mpy.py` 348-361 (`isendRecvForces`): forces of each process when its integrator runs. -/
def forcesAt (p : Phys K M R C F T) (c : Comm) (ss : ℕ → Scene K M R C F T) (w : ℕ) : ℕ → F :=
  if w = 0 then masterForces p c ss (c.nbr 0) (forces p (ss 0)) else forces p (ss w)

/-- The scenes of all processes after their integrators ran, before states are exchanged (`py/mpy.py` 530-541: order of the engines). -/
def moved (p : Phys K M R C F T) (c : Comm) (ss : ℕ → Scene K M R C F T) (w : ℕ) : Scene K M R C F T :=
  newtonAll p (afterLoop p (ss w)) (forcesAt p c ss w)

/-- `core/Subdomain.hpp` 82-95 (`setStateValuesFromIds`): sets the exchanged part of the state of the listed bodies. -/
def setStates : List ℕ → List (Option M) → (ℕ → Option (Body K M R)) → ℕ → Option (Body K M R)
  | i :: is, some m :: ms, b => setStates is ms fun j => if j = i then (b j).map fun x => { x with m := m } else b j
  | _, _, b => b

/-- `core/Subdomain.hpp` 31-44 and 70-76 (`getStateValues`): the states sent by a process, `none` where it has no such body. -/
def stateMsg (is : List ℕ) (b : ℕ → Option (Body K M R)) : List (Option M) :=
  is.map fun i => (b i).map Body.m

/-- `py/mpy.py` 341-345 (`sendRecvStates`): worker `w` takes the states sent by each of its neighbours. -/
def recvFrom (c : Comm) (ss : ℕ → Scene K M R C F T) (w : ℕ) :
    List ℕ → (ℕ → Option (Body K M R)) → ℕ → Option (Body K M R)
  | [], b => b
  | v :: l, b => recvFrom c ss w l (setStates (c.mir w v) (stateMsg (c.inter v w) (ss v).body) b)

/-- `py/mpy.py` 297-345 (`sendRecvStates`); the master never receives states (lines 303, 330). -/
def received (c : Comm) (ss : ℕ → Scene K M R C F T) (w : ℕ) : Scene K M R C F T :=
  if w = 0 then ss 0 else { ss w with body := recvFrom c ss w (c.nbr w) (ss w).body }

/-- The conditions without which `getStateValues` or `setStateValuesFromIds` refer to bodies that do not exist, or to the end of a
    message that is too short (`core/Subdomain.hpp` 70-95): undefined behaviour. -/
def exchangeOk (c : Comm) (ss : ℕ → Scene K M R C F T) (w : ℕ) : Bool :=
  (c.nbr w).all fun v =>
    (c.inter v w).all (fun i => ((ss v).body i).isSome) && (c.mir w v).all (fun i => ((ss w).body i).isSome) &&
      decide ((c.mir w v).length = (c.inter v w).length)

/-- One iteration of all `n` processes (`py/mpy.py` 530-541 for the order of the engines). -/
def distStep (p : Phys K M R C F T) (c : Comm) (n : ℕ) (ss : ℕ → Scene K M R C F T) : Res (ℕ → Scene K M R C F T) :=
  if (List.range n).all (fun w => w == 0 || exchangeOk c (moved p c ss) w) then .ok fun w => received c (moved p c ss) w
  else .ub

/-- `py/mpy.py` 551-557 (`mpirun`): iterations without any merge. -/
def distRun (p : Phys K M R C F T) (c : Comm) (n : ℕ) : ℕ → (ℕ → Scene K M R C F T) → Res (ℕ → Scene K M R C F T)
  | 0, ss => .ok ss
  | k + 1, ss =>
    match distStep p c n ss with
    | .ok ss' => distRun p c n k ss'
    | .throws => .throws
    | .ub => .ub

/-- `core/Scene.cpp`: iterations of an ordinary run. -/
def serialRun (p : Phys K M R C F T) : ℕ → Scene K M R C F T → Scene K M R C F T
  | 0, s => s
  | k + 1, s => serialRun p k (serialStep p s)

/-- `core/InteractionContainer.cpp` (`found`): an interaction of the two bodies is stored, in any order of ids. -/
def found (l : List (Intr C)) (a b : ℕ) : Bool :=
  l.any fun I => (I.id1 == a && I.id2 == b) || (I.id1 == b && I.id2 == a)

/-- `pkg/common/InsertionSortCollider.cpp` 22-32: the collider adds a potential interaction if there is none of the two bodies. -/
def addPotential (l : List (Intr C)) (ab : ℕ × ℕ) : List (Intr C) :=
  if found l ab.1 ab.2 then l else l ++ [⟨ab.1, ab.2, none⟩]

/-- What a split decides: the remote bodies a worker keeps and the pairs its collider finds (C112-C115). -/
structure Plan where
  comm : Comm
  keep : ℕ → List ℕ
  pairs : ℕ → List (ℕ × ℕ)

/-- `py/mpy.py` 516-525 (`splitScene`): the worker keeps its bodies and those it shares with others. -/
def keptBody (pl : Plan) (s : Scene K M R C F T) (w i : ℕ) : Option (Body K M R) :=
  (s.body i).filter fun b => decide (b.sub = w ∨ i ∈ pl.keep w)

/-- `py/mpy.py` 516-525 with `core/BodyContainer.cpp` (`erase`): the interactions of erased bodies are erased, and
    `core/InteractionContainer.cpp` 133-139 (`preSave`): only real interactions are in the message. -/
def keptIntr (pl : Plan) (s : Scene K M R C F T) (w : ℕ) (I : Intr C) : Bool :=
  I.con.isSome && (keptBody pl s w I.id1).isSome && (keptBody pl s w I.id2).isSome

/-- `py/mpy.py` 400-547 (`splitScene`): the scene of each process after a split.  Workers get the bodies and the interactions of the
    scene of the master (433, 437), but not the permanent forces, as `Scene::forces` is no attribute (`core/Scene.hpp` 44). -/
def split (pl : Plan) (s : Scene K M R C F T) (w : ℕ) : Scene K M R C F T :=
  if w = 0 then { s with rank := 0, intrs := (pl.pairs 0).foldl addPotential s.intrs }
  else
    { rank := w
      body := keptBody pl s w
      intrs := (pl.pairs w).foldl addPotential (s.intrs.filter (keptIntr pl s w))
      perm := fun _ => 0
      dt := s.dt }

/-- `py/mpy.py` 377-397 (`mergeScene`): the master takes positions, velocities, angular velocities and orientations of each worker for
    the bodies of its subdomain.  (What else happens, or fails to happen, in a merge: C48.) -/
def merge (ss : ℕ → Scene K M R C F T) : Scene K M R C F T :=
  { ss 0 with body := fun i => ((ss 0).body i).map fun b =>
      if b.sub = 0 then b
      else
        match (ss b.sub).body i with
        | some x => { b with m := x.m }
        | none => b }

/-- `py/mpy.py` 551-564 (`mpirun` with `mergeSplit`): split, some iterations, merge, for each item of the list. -/
def phases (p : Phys K M R C F T) (n : ℕ) : List (Plan × ℕ) → Scene K M R C F T → Res (Scene K M R C F T)
  | [], s => .ok s
  | (pl, k) :: l, s =>
    match distRun p pl.comm n k (split pl s) with
    | .ok ss => phases p n l (merge ss)
    | .throws => .throws
    | .ub => .ub

end

end Verif.Dist
