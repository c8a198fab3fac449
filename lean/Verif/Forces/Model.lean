import Mathlib.Algebra.Group.Defs
import Verif.Base
/-!
# Model of the force container

Transcribes `core/ForceContainer.hpp`, `core/ForceContainerParallel.cpp` (OpenMP build) and
`core/ForceContainerSerial.cpp` (build without OpenMP).

Simplifications:
* vectors of reals are elements of an arbitrary commutative monoid `V` (rounding is not modelled);
* ids are natural numbers (python checks them, yadeWrapper.cpp:496 `checkId`);
* one operation of one thread is one step here (the finer interleavings are in `Race.lean`);
* the four storages force, torque, move, rotation, each with one array per thread and one array of
  totals, are four values of type `Chan`;
* `int` does not overflow.
-/
namespace Verif.Forces
open Verif

/-- `std::vector<Vector3r>`: a length and the elements (elements from `len` on are never read). -/
structure Arr (V : Type) where
  len : Nat
  at' : Nat → V

variable {V : Type} [AddCommMonoid V]

namespace Arr
/-- empty vector -/
def empty : Arr V := ⟨0, fun _ => 0⟩
/-- `v.resize(n, Vector3r::Zero())` -/
def resize (a : Arr V) (n : Nat) : Arr V := ⟨n, fun i => if i < a.len ∧ i < n then a.at' i else 0⟩
/-- `v[i]`, undefined outside -/
def get (a : Arr V) (i : Nat) : Res V := if i < a.len then .ok (a.at' i) else .ub
/-- `v[i]=x`, undefined outside -/
def set (a : Arr V) (i : Nat) (x : V) : Res (Arr V) :=
  if i < a.len then .ok ⟨a.len, fun j => if j = i then x else a.at' j⟩ else .ub
/-- `v[i]+=x`, undefined outside -/
def add (a : Arr V) (i : Nat) (x : V) : Res (Arr V) :=
  if i < a.len then .ok ⟨a.len, fun j => if j = i then a.at' j + x else a.at' j⟩ else .ub
/-- `memset(&v[0],0,n*sizeof)`: undefined if the vector is shorter. -/
def zero (a : Arr V) (n : Nat) : Res (Arr V) :=
  if n ≤ a.len then .ok ⟨a.len, fun j => if j < n then 0 else a.at' j⟩ else .ub
end Arr

/-- one kind of quantity: per thread increments (`_forceData`…) and totals (`_force`…),
core/ForceContainer.hpp:49–60 -/
structure Chan (V : Type) where
  data : Nat → Arr V
  tot : Arr V

/-- `sum over threads 0..n-1`, accumulated in this order (ForceContainerParallel.cpp:183, 190) -/
def sumTo (f : Nat → V) : Nat → V
  | 0 => 0
  | n + 1 => sumTo f n + f n

/-- replace the value at one index -/
def fset {α : Type} (f : Nat → α) (t : Nat) (x : α) : Nat → α := fun i => if i = t then x else f i

/-- core/ForceContainer.hpp:46–68, 77–78 -/
structure FC (V : Type) where
  nThreads : Nat
  f : Chan V
  t : Chan V
  m : Chan V
  r : Chan V
  permForce : Arr V
  permTorque : Arr V
  maxId : Nat → Nat
  sizeOfThreads : Nat → Nat
  size : Nat
  syncedSizes : Bool
  synced : Bool
  moveRotUsed : Bool
  permForceUsed : Bool
  syncCount : Nat
  lastReset : Int

/-- ForceContainerParallel.cpp:37–47, constructor; `n` is `omp_get_max_threads()` -/
def FC.init (n : Nat) : FC V :=
  { nThreads := n, f := ⟨fun _ => .empty, .empty⟩, t := ⟨fun _ => .empty, .empty⟩,
    m := ⟨fun _ => .empty, .empty⟩, r := ⟨fun _ => .empty, .empty⟩,
    permForce := .empty, permTorque := .empty, maxId := fun _ => 0, sizeOfThreads := fun _ => 0, size := 0,
    syncedSizes := true, synced := true, moveRotUsed := false, permForceUsed := false, syncCount := 0,
    lastReset := 0 }

/-- ForceContainerParallel.cpp:31, 33: `min((size_t)1.5*(id+100), (size_t)(id+2000))`; the cast binds
tighter than the product, so `(size_t)1.5` is 1. -/
def newSize (id : Nat) : Nat := min (1 * (id + 100)) (id + 2000)

/-- resize the array of one thread -/
def Chan.resizeT (c : Chan V) (n t : Nat) : Chan V := { c with data := fset c.data t ((c.data t).resize n) }

/-- ForceContainerParallel.cpp:223–232 `resize(newSize, threadN)` -/
def resize (s : FC V) (n th : Nat) : FC V :=
  { s with
    f := s.f.resizeT n th, t := s.t.resizeT n th, m := s.m.resizeT n th, r := s.r.resizeT n th,
    sizeOfThreads := fset s.sizeOfThreads th n,
    size := if s.size < n then n else s.size,
    syncedSizes := false }

/-- ForceContainerParallel.cpp:17–22 `resizePerm` -/
def resizePerm (s : FC V) (n : Nat) : FC V :=
  { s with
    permForce := s.permForce.resize n, permTorque := s.permTorque.resize n,
    size := if s.size < n then n else s.size, syncedSizes := false }

/-- ForceContainerParallel.cpp:26–35 `ensureSize(id, threadN)` with `threadN ≥ 0` -/
def ensureSize (s : FC V) (id th : Nat) : FC V :=
  let idMax := max id (s.maxId th)
  let s := { s with maxId := fset s.maxId th 0 }
  if s.sizeOfThreads th ≤ idMax then resize s (newSize idMax) th else s

/-- ForceContainerParallel.cpp:26–31 `ensureSize(id, -1)`: reads and writes `_maxId[-1]`.  `oob` is what
the read outside the vector yields, `none` if it is not survived. -/
def ensureSizePerm (s : FC V) (id : Nat) (oob : Option Nat) : Res (FC V) :=
  match oob with
  | none => .ub
  | some g => .ok (resizePerm s (newSize (max id g)))

/-- `data[thread][id]+=v` -/
def Chan.addAt (c : Chan V) (th id : Nat) (v : V) : Res (Chan V) :=
  match (c.data th).add id v with
  | .ok a => .ok { c with data := fset c.data th a }
  | .throws => .throws
  | .ub => .ub

/-- ForceContainerParallel.cpp:54–58 `addForce` by thread `th` -/
def addForce (s : FC V) (th id : Nat) (v : V) : Res (FC V) :=
  let s := { ensureSize s id th with synced := false }
  match s.f.addAt th id v with
  | .ok c => .ok { s with f := c }
  | .throws => .throws
  | .ub => .ub

/-- ForceContainerParallel.cpp:65–69 `addTorque` -/
def addTorque (s : FC V) (th id : Nat) (v : V) : Res (FC V) :=
  let s := { ensureSize s id th with synced := false }
  match s.t.addAt th id v with
  | .ok c => .ok { s with t := c }
  | .throws => .throws
  | .ub => .ub

/-- ForceContainerParallel.cpp:76–81 `addMove` -/
def addMove (s : FC V) (th id : Nat) (v : V) : Res (FC V) :=
  let s := { ensureSize s id th with synced := false, moveRotUsed := true }
  match s.m.addAt th id v with
  | .ok c => .ok { s with m := c }
  | .throws => .throws
  | .ub => .ub

/-- ForceContainerParallel.cpp:88–93 `addRot` -/
def addRot (s : FC V) (th id : Nat) (v : V) : Res (FC V) :=
  let s := { ensureSize s id th with synced := false, moveRotUsed := true }
  match s.r.addAt th id v with
  | .ok c => .ok { s with r := c }
  | .throws => .throws
  | .ub => .ub

/-- ForceContainerParallel.cpp:95–97 `addMaxId` -/
def addMaxId (s : FC V) (th id : Nat) : FC V := { s with maxId := fset s.maxId th id }

/-- ForceContainerParallel.cpp:99–104 `setPermForce` -/
def setPermForce (s : FC V) (id : Nat) (v : V) (oob : Option Nat) : Res (FC V) :=
  match ensureSizePerm s id oob with
  | .ok s => match s.permForce.set id v with
    | .ok a => .ok { s with permForce := a, synced := false, permForceUsed := true }
    | .throws => .throws
    | .ub => .ub
  | .throws => .throws
  | .ub => .ub

/-- ForceContainerParallel.cpp:106–111 `setPermTorque` -/
def setPermTorque (s : FC V) (id : Nat) (v : V) (oob : Option Nat) : Res (FC V) :=
  match ensureSizePerm s id oob with
  | .ok s => match s.permTorque.set id v with
    | .ok a => .ok { s with permTorque := a, synced := false, permForceUsed := true }
    | .throws => .throws
    | .ub => .ub
  | .throws => .throws
  | .ub => .ub

/-- `(size_t)id<size ? vec[id] : _zero` after `ensureSynced()` (ForceContainerParallel.cpp:3–5, 49–52) -/
def readSynced (s : FC V) (a : Arr V) (id : Nat) : Res V :=
  if !s.synced then .throws else if id < s.size then a.get id else .ok 0

/-- ForceContainerParallel.cpp:49–52 -/
def getForce (s : FC V) (id : Nat) : Res V := readSynced s s.f.tot id
/-- ForceContainerParallel.cpp:60–63 -/
def getTorque (s : FC V) (id : Nat) : Res V := readSynced s s.t.tot id
/-- ForceContainerParallel.cpp:71–74 -/
def getMove (s : FC V) (id : Nat) : Res V := readSynced s s.m.tot id
/-- ForceContainerParallel.cpp:83–86 -/
def getRot (s : FC V) (id : Nat) : Res V := readSynced s s.r.tot id
/-- ForceContainerParallel.cpp:113–116 -/
def getPermForce (s : FC V) (id : Nat) : Res V := readSynced s s.permForce id
/-- ForceContainerParallel.cpp:118–121 -/
def getPermTorque (s : FC V) (id : Nat) : Res V := readSynced s s.permTorque id

/-- ForceContainerParallel.cpp:123–126 `getForceUnsynced` -/
def getForceUnsynced (s : FC V) (id : Nat) : Res V := s.f.tot.get id
/-- ForceContainerParallel.cpp:128–131 `getTorqueUnsynced` -/
def getTorqueUnsynced (s : FC V) (id : Nat) : Res V := s.t.tot.get id

/-- the guarded sum over threads of the `get…Single` functions (ForceContainerParallel.cpp:135–137) -/
def sumSingle (s : FC V) (c : Chan V) (id : Nat) : V :=
  sumTo (fun th => if id < s.sizeOfThreads th then (c.data th).at' id else 0) s.nThreads

/-- ForceContainerParallel.cpp:133–140 `getForceSingle`; the permanent force is read without check. -/
def getForceSingle (s : FC V) (id : Nat) : Res V :=
  if s.permForceUsed then
    match s.permForce.get id with
    | .ok p => .ok (sumSingle s s.f id + p)
    | .throws => .throws
    | .ub => .ub
  else .ok (sumSingle s s.f id)

/-- ForceContainerParallel.cpp:142–149 `getTorqueSingle` -/
def getTorqueSingle (s : FC V) (id : Nat) : Res V :=
  if s.permForceUsed then
    match s.permTorque.get id with
    | .ok p => .ok (sumSingle s s.t id + p)
    | .throws => .throws
    | .ub => .ub
  else .ok (sumSingle s s.t id)

/-- ForceContainerParallel.cpp:151–157 `getMoveSingle` -/
def getMoveSingle (s : FC V) (id : Nat) : Res V := .ok (sumSingle s s.m id)
/-- ForceContainerParallel.cpp:159–165 `getRotSingle` -/
def getRotSingle (s : FC V) (id : Nat) : Res V := .ok (sumSingle s s.r id)

/-- the loop over threads of `syncSizesOfContainers` (ForceContainerParallel.cpp:241–243), threads
`0..k-1` -/
def growThreads (s : FC V) : Nat → FC V
  | 0 => s
  | k + 1 =>
    let s := growThreads s k
    if s.sizeOfThreads k < s.size then resize s s.size k else s

/-- resize the totals of one quantity -/
def Chan.resizeTot (c : Chan V) (n : Nat) : Chan V := { c with tot := c.tot.resize n }

/-- ForceContainerParallel.cpp:238–251 `syncSizesOfContainers` -/
def syncSizes (s : FC V) : FC V :=
  if s.syncedSizes then s
  else
    let s := growThreads s s.nThreads
    { s with
      f := s.f.resizeTot s.size, t := s.t.resizeTot s.size,
      permForce := s.permForce.resize s.size, permTorque := s.permTorque.resize s.size,
      m := s.m.resizeTot s.size, r := s.r.resizeTot s.size, syncedSizes := true }

/-- the loop `if (_maxId[i]>0) ensureSize(_maxId[i],i)` for threads `0..k-1`
(ForceContainerParallel.cpp:175–177) -/
def growMaxIds (s : FC V) : Nat → FC V
  | 0 => s
  | k + 1 =>
    let s := growMaxIds s k
    if s.maxId k > 0 then ensureSize s (s.maxId k) k else s

/-- `p` holds for all threads `0..n-1` -/
def allTo (p : Nat → Bool) : Nat → Bool
  | 0 => true
  | n + 1 => allTo p n && p n

/-- the arrays of all threads and of the totals are long enough for the summation loops -/
def Chan.covers (c : Chan V) (n size : Nat) : Bool :=
  allTo (fun th => decide (size ≤ (c.data th).len)) n && decide (size ≤ c.tot.len)

/-- `tot[id]=sum over threads (+ perm[id])` for all `id<size` (ForceContainerParallel.cpp:181–186) -/
def Chan.total (c : Chan V) (n size : Nat) (perm : Option (Arr V)) : Chan V :=
  { c with tot := ⟨c.tot.len, fun id =>
      if id < size then
        (match perm with
         | some p => sumTo (fun th => (c.data th).at' id) n + p.at' id
         | none => sumTo (fun th => (c.data th).at' id) n)
      else c.tot.at' id⟩ }

/-- memory accesses of the summation loops are inside the vectors -/
def sumsInside (s : FC V) : Bool :=
  s.f.covers s.nThreads s.size && s.t.covers s.nThreads s.size &&
  (!s.permForceUsed || (decide (s.size ≤ s.permForce.len) && decide (s.size ≤ s.permTorque.len))) &&
  (!s.moveRotUsed || (s.m.covers s.nThreads s.size && s.r.covers s.nThreads s.size))

/-- ForceContainerParallel.cpp:181–194 the summation itself -/
def sumUp (s : FC V) : FC V :=
  let pf := if s.permForceUsed then some s.permForce else none
  let pt := if s.permForceUsed then some s.permTorque else none
  { s with
    f := s.f.total s.nThreads s.size pf, t := s.t.total s.nThreads s.size pt,
    m := if s.moveRotUsed then s.m.total s.nThreads s.size none else s.m,
    r := if s.moveRotUsed then s.r.total s.nThreads s.size none else s.r,
    synced := true, syncCount := s.syncCount + 1 }

/-- some thread has registered new bodies (ForceContainerParallel.cpp:168–170), threads `0..n-1` -/
def anyMaxId (maxId : Nat → Nat) : Nat → Bool
  | 0 => false
  | k + 1 => anyMaxId maxId k || decide (maxId k > 0)

/-- ForceContainerParallel.cpp:167–195 `sync` -/
def sync (s : FC V) : Res (FC V) :=
  let s := if anyMaxId s.maxId s.nThreads then { s with synced := false } else s
  if s.synced then .ok s
  else
    let s := syncSizes (growMaxIds s s.nThreads)
    if sumsInside s then .ok (sumUp s) else .ub

/-- `memset` of the array of one thread -/
def Chan.zeroData (c : Chan V) (sizes : Nat → Nat) : Nat → Res (Chan V)
  | 0 => .ok c
  | k + 1 => match c.zeroData sizes k with
    | .ok c => match (c.data k).zero (sizes k) with
      | .ok a => .ok { c with data := fset c.data k a }
      | .throws => .throws
      | .ub => .ub
    | .throws => .throws
    | .ub => .ub

/-- `memset` of all thread arrays and of the totals -/
def Chan.zeroAll (c : Chan V) (sizes : Nat → Nat) (n size : Nat) : Res (Chan V) :=
  match c.zeroData sizes n with
  | .ok c => match c.tot.zero size with
    | .ok a => .ok { c with tot := a }
    | .throws => .throws
    | .ub => .ub
  | .throws => .throws
  | .ub => .ub

/-- the `if(moveRotUsed)` guarded part of `reset` (ForceContainerParallel.cpp:202–205, 209–212) -/
def Chan.zeroIf (c : Chan V) (b : Bool) (sizes : Nat → Nat) (n size : Nat) : Res (Chan V) :=
  if b then c.zeroAll sizes n size else .ok c
/-- the `if(resetAll)` guarded part of `reset` (ForceContainerParallel.cpp:213–215) -/
def Arr.zeroIf (a : Arr V) (b : Bool) (n : Nat) : Res (Arr V) := if b then a.zero n else .ok a

/-- ForceContainerParallel.cpp:199–220: `reset` after the sizes were synchronised -/
def resetSynced (s : FC V) (iter : Int) (resetAll : Bool) : Res (FC V) := do
  let f ← s.f.zeroAll s.sizeOfThreads s.nThreads s.size
  let t ← s.t.zeroAll s.sizeOfThreads s.nThreads s.size
  let m ← s.m.zeroIf s.moveRotUsed s.sizeOfThreads s.nThreads s.size
  let r ← s.r.zeroIf s.moveRotUsed s.sizeOfThreads s.nThreads s.size
  let pf ← s.permForce.zeroIf resetAll s.size
  let pt ← s.permTorque.zeroIf resetAll s.size
  let used := if resetAll then false else s.permForceUsed
  pure { s with f := f, t := t, m := m, r := r, permForce := pf, permTorque := pt, permForceUsed := used,
                synced := !used, moveRotUsed := false, lastReset := iter }

/-- ForceContainerParallel.cpp:197–221 `reset(iter, resetAll)` (the order of the independent `memset`s
is immaterial) -/
def reset (s : FC V) (iter : Int) (resetAll : Bool) : Res (FC V) :=
  resetSynced (syncSizes s) iter resetAll

end Verif.Forces
