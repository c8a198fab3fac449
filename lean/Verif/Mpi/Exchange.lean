import Verif.Mpi.Net
import Verif.Mpi.States
/-!
# The messages of a step

Transcribes the communications of `py/mpy.py`: `sendRecvStates` (297–345), `isendRecvForces` (348–361) with `receiveForces` (92–116), in the
default configuration `USE_CPP_MPI = OPTIMIZE_COM = True`, and the C++ calls they end in (`core/Subdomain.hpp`
124–161).  `splitScene` puts the exchange of forces before and that of states after the integrator (mpy.py 527–531).

`I p k` is `intersections[k]` of process `p`: ids of bodies for `k ≠ p`, ranks for `k = p`.  The first numbers of the operations are levels
(see `Verif.Mpi.Net`); they are not in the code.
-/
namespace Verif.Mpi.Exchange
open Verif.Mpi.Net

variable {M : Type}

/-- mpy.py 297–345 `sendRecvStates` on process `p`, ids of neighbours `nb = intersections[rank]`: receives are posted (304–311; not by the
master), states are sent to the neighbours other than the master (314–328), then the receives are waited for (332, 341–345) -/
def statesOps (base p : Nat) (nb : List Nat) (payload : Nat → M) : List (Nat × Op M) :=
  (if p = 0 then [] else nb.map fun q => (base, Op.post q 177)) ++
  ((nb.filter fun k => k ≠ p ∧ k ≠ 0).map fun k => (base + 1, Op.send k 177 (payload k))) ++
  (if p = 0 then [] else nb.map fun q => (base + 2, Op.wait q 177))

/-- mpy.py 348–361 `isendRecvForces`: a worker sends its forces to the master (355–359), the master receives from the workers in
`nb0 = intersections[0]` one after the other (361, 110–111); `acc` is `ACCUMULATE_FORCES` (354) -/
def forcesOps (acc : Bool) (base p : Nat) (nb0 : List Nat) (forces : M) : List (Nat × Op M) :=
  if acc = false then [] else
  if p = 0 then nb0.flatMap fun sd => [(base + 3 * nb0.idxOf sd, Op.post sd 15), (base + 3 * nb0.idxOf sd + 2, Op.wait sd 15)]
  else [(base + 3 * nb0.idxOf p + 1, Op.send 0 15 forces)]

/-- level at which step `t` begins -/
def baseAt (I : Nat → Nat → Nat → List Nat) : Nat → Nat
  | 0 => 0
  | t + 1 => baseAt I t + 3 * (I t 0 0).length + 6

/-- communications of process `p` in step `t`: forces before, states after the integrator; the lists of intersections may differ from
step to step (they change when the scene is merged and split again) -/
def stepOps (acc : Bool) (I : Nat → Nat → Nat → List Nat) (states : Nat → Nat → Nat → M) (forces : Nat → Nat → M) (p t : Nat) : List (Nat × Op M) :=
  forcesOps acc (baseAt I t) p (I t 0 0) (forces t p) ++ statesOps (baseAt I t + 3 * (I t 0 0).length + 3) p (I t p p) (states t p)

/-- `T` steps of the `n` processes -/
def steps (acc : Bool) (n : Nat) (I : Nat → Nat → Nat → List Nat) (states : Nat → Nat → Nat → M) (forces : Nat → Nat → M) (T : Nat) : Prog M :=
  fun p => if p < n then (List.range T).flatMap (stepOps acc I states forces p) else []

/-- Subdomain.hpp 146: numbers a posted receive makes room for -/
def recvCount (mirror : List Int) : Nat := mirror.length * 13

/-- mpy.py 341–345: the received states are applied in the order of the neighbours `nb`; `mirror q` is `mirrorIntersections[q]`, `buf q`
the buffer filled by the message of `q` (Subdomain.hpp 119–122) -/
def applyAll {R E : Type} (mirror : Nat → List Int) (buf : Nat → List R) : List Nat → Bodies R E → Res (Bodies R E)
  | [], B => .ok B
  | q :: nb, B => (setStates (mirror q) (buf q) B).bind (applyAll mirror buf nb)

end Verif.Mpi.Exchange
