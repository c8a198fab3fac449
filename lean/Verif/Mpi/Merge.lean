import Verif.Mpi.States
/-!
# Merging the scene

Transcribes `mergeScene` (`py/mpy.py` 377–397) with `reboundRemoteBodies` (141–147).  Messages arrive as sent (`Verif.Mpi.Net`); pickling
keeps every attribute of a bound (lib/serialization/Serializable.cpp 21, Serializable.hpp 149).  The ids of the bodies are their positions
in the container.  Left out: the end of `mergeScene` (392–396, engines and flags).
-/
namespace Verif.Mpi
open Verif

variable {R E : Type}

/-- mpy.py 380, 388: `[b.id for b in O.bodies if b.subdomain==k]` -/
def owned (B : Bodies R E) (k : Int) : List Int :=
  ((List.range B.length).filter fun i => match B[i]? with
    | some (some b) => b.subdomain = k
    | _ => false).map fun i : Nat => (i : Int)

/-- mpy.py 381: `[b.bound for b in O.bodies if b.subdomain==k]` -/
def ownedBounds (B : Bodies R E) (k : Int) : List (Option (Bnd R)) :=
  B.filterMap fun
    | some b => if b.subdomain = k then some b.bound else none
    | none => none

/-- mpy.py 390–391: `for k in range(len(ids)): O.bodies[ids[k]].bound = bounds[k]`; a missing bound is an `IndexError`, a vanished body an
`AttributeError` (`O.bodies[id]` is `None`), an id out of range an `IndexError` -/
def setBounds : List Int → List (Option (Bnd R)) → Bodies R E → Res (Bodies R E)
  | [], _, B => .ok B
  | _ :: _, [], _ => .throws
  | i :: ids, bd :: bounds, B =>
    match deref B i with
    | .ok b => setBounds ids bounds (store B i { b with bound := bd })
    | _ => .throws

/-- mpy.py 141–147 `reboundRemoteBodies`; `isGridNode` tells whether the shape is a `GridNode` -/
def rebound (isGridNode : E → Bool) : List Int → Bodies R E → Res (Bodies R E)
  | [], B => .ok B
  | i :: ids, B =>
    match deref B i with
    | .ok b => rebound isGridNode ids (if isGridNode b.rest then B else store B i { b with bounded := true })
    | _ => .throws

/-- mpy.py 379–391: what worker `k` with bodies `W` sends and what the master with bodies `B` makes of it -/
def mergeOne (isGridNode : E → Bool) (k : Int) (W B : Bodies R E) : Res (Bodies R E) :=
  (getStates W (owned W k)).bind fun dat =>
  (setStates (owned B k) dat B).bind fun B' =>
  (setBounds (owned B k) (ownedBounds W k) B').bind fun B'' =>
  rebound isGridNode (owned B k) B''

/-- mpy.py 383–391: the workers in turn -/
def mergeLoop (isGridNode : E → Bool) (W : Nat → Bodies R E) : List Nat → Bodies R E → Res (Bodies R E)
  | [], B => .ok B
  | k :: ks, B => (mergeOne isGridNode k (W k) B).bind (mergeLoop isGridNode W ks)

/-- mpy.py 377–391 `mergeScene` on the master of `n` processes -/
def mergeScene (isGridNode : E → Bool) (n : Nat) (W : Nat → Bodies R E) (B : Bodies R E) : Res (Bodies R E) :=
  mergeLoop isGridNode W ((List.range n).drop 1) B

end Verif.Mpi
