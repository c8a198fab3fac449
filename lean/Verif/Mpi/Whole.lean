import Verif.Mpi.Exchange
/-!
# The messages of a whole distributed run

Transcribes the communications of `splitScene` (`py/mpy.py` 400–514 with `updateDomainBounds` 149–184) and of `mergeScene` (377–391), and puts
them in sequence with those of the steps (`Verif/Mpi/Exchange.lean`), as `mpirun` does (551–564).

`I p k` is `intersections[k]` of process `p`.  The first numbers of the operations are levels (see `Verif.Mpi.Net`); they are not in the
code.  A blocking receive is a posted receive and its wait.  The collective vote between steps is in `Verif/Mpi/Vote.lean`.
-/
namespace Verif.Mpi.Whole
open Verif.Mpi.Net Verif.Mpi.Exchange

variable {M : Type}

/-- ranks of the workers in increasing order, `range(1,numThreads)` -/
def workers (n : Nat) : List Nat := (List.range (n - 1)).map (· + 1)

/-- mpy.py 431–437: the master sends the scene to each worker, a worker receives it -/
def sceneOps (n p : Nat) (scene : Nat → M) : List (Nat × Op M) :=
  if p = 0 then (workers n).map fun w => (1, Op.send w 11 (scene w))
  else [(0, Op.post 0 11), (2, Op.wait 0 11)]

/-- mpy.py 149–184 `updateDomainBounds`: receives are posted for the corners of all other subdomains (158–165), a worker sends its own to all
other processes (166–174), the receives are waited for (175–181) -/
def sizeOps (n p : Nat) (corners : Nat → M) : List (Nat × Op M) :=
  (((workers n).filter fun k => k ≠ p).map fun k => (3, Op.post k 12)) ++
  (if p = 0 then [] else ((List.range n).filter fun k => k ≠ p).map fun w => (4, Op.send w 12 (corners p))) ++
  (((workers n).filter fun k => k ≠ p).map fun k => (5, Op.wait k 12))

/-- mpy.py 467–514: the master sends its list for each worker (470–473); a worker receives it (477), posts receives for the lists of its
neighbours (492–496), sends its own to them (498–501) and waits for theirs (504–514); `nb = intersections[rank]` -/
def mirrorOps (n p : Nat) (nb : List Nat) (lists : Nat → M) : List (Nat × Op M) :=
  if p = 0 then (workers n).map fun w => (7, Op.send w 16 (lists w))
  else
    [(6, Op.post 0 16), (8, Op.wait 0 16)] ++
    ((nb.filter fun k => k ≠ 0).map fun w => (9, Op.post w 16)) ++
    ((nb.filter fun k => k ≠ 0).map fun w => (10, Op.send w 16 (lists w))) ++
    ((nb.filter fun k => k ≠ 0).map fun w => (11, Op.wait w 16))

/-- mpy.py 400–514: all messages of `splitScene` -/
def splitOps (n : Nat) (I : Nat → Nat → List Nat) (scene : Nat → M) (corners : Nat → M) (lists : Nat → Nat → M) (p : Nat) : List (Nat × Op M) :=
  if p < n then sceneOps n p scene ++ sizeOps n p corners ++ mirrorOps n p (I p p) (lists p) else []

/-- mpy.py 377–386 `mergeScene`: each worker sends states and bounds, the master receives them from one worker after the other -/
def mergeOps (n : Nat) (dat bounds : Nat → M) (p : Nat) : List (Nat × Op M) :=
  if p < n then
    if p = 0 then (workers n).flatMap fun w =>
      [(6 * w, Op.post w 17), (6 * w + 2, Op.wait w 17), (6 * w + 3, Op.post w 18), (6 * w + 5, Op.wait w 18)]
    else [(6 * p + 1, Op.send 0 17 (dat p)), (6 * p + 4, Op.send 0 18 (bounds p))]
  else []

/-- what `mpirun` does between votes (mpy.py 551–564): split, a number of steps, merge -/
inductive Phase (M : Type) where
  | split (I : Nat → Nat → List Nat) (scene corners : Nat → M) (lists : Nat → Nat → M)
  | steps (T : Nat) (I : Nat → Nat → Nat → List Nat) (states : Nat → Nat → Nat → M) (forces : Nat → Nat → M)
  | merge (dat bounds : Nat → M)

/-- the communications of a phase -/
def Phase.ops (acc : Bool) (n : Nat) : Phase M → Prog M
  | .split I scene corners lists => splitOps n I scene corners lists
  | .steps T I states forces => Exchange.steps acc n I states forces T
  | .merge dat bounds => mergeOps n dat bounds

/-- levels used by a phase -/
def Phase.len (n : Nat) : Phase M → Nat
  | .split .. => 12
  | .steps T I _ _ => baseAt I T
  | .merge .. => 6 * n + 6

/-- levels moved up -/
def shift (d : Nat) (l : List (Nat × Op M)) : List (Nat × Op M) := l.map fun x => (x.1 + d, x.2)

/-- one phase after the other -/
def run (acc : Bool) (n : Nat) : List (Phase M) → Prog M
  | [], _ => []
  | f :: fs, p => f.ops acc n p ++ shift (f.len n) (run acc n fs p)

end Verif.Mpi.Whole
