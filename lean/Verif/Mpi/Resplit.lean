import Verif.Stride.Model
/-!
# The bounding boxes of a process while a scene is split

Transcribes the runs of the bound dispatcher and of the collider in `splitScene` (`py/mpy.py` 454–459, 514–532) on top of
`Verif/Stride/Model.lean`, for one process.

Simplifications: which remote bodies are near (the lists of `Verif/Mpi/Split.lean`) is a parameter; the bodies standing for subdomains
have no box here (they never touch anything); clumps and grid nodes are not among the bodies erased (see `Verif/Mpi/EraseRemote.lean`).
-/
namespace Verif.Mpi.Resplit
open Verif Verif.Mech Verif.Stride

/-- mpy.py 132–139 `unboundRemoteBodies` -/
def unbound (own : Nat → Bool) (s : Scn) : Scn :=
  { s with
    bounded := fun j => own j && s.bounded j
    w := { s.w with bodies := fun j => if own j then s.w.bodies j else (s.w.bodies j).map fun b => { b with bound := none } } }

/-- mpy.py 141–147 `reboundRemoteBodies` for all mirror lists (479, 514) -/
def rebound (near : Nat → Bool) (s : Scn) : Scn := { s with bounded := fun j => near j || s.bounded j }

/-- mpy.py 516–527: workers erase the remote bodies that are still unbounded -/
def eraseFar (own near : Nat → Bool) (s : Scn) : Scn :=
  { s with w := { s.w with bodies := fun j => if own j || near j then s.w.bodies j else none } }

/-- mpy.py 454–532: the boxes of a worker that owns the bodies `own` and has the bodies `near` in its mirror lists -/
noncomputable def splitRun (own near : Nat → Bool) (s : Scn) : Res Scn :=
  (boundLoop (List.range s.size) (unbound own s)).bind fun s1 =>               -- 456, 457
  (colliderAction s1).bind fun s2 =>                                           -- 459
  colliderAction (eraseFar own near (rebound near s2))                         -- 479, 514–532

end Verif.Mpi.Resplit
