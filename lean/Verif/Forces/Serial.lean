import Verif.Forces.Model
/-!
# Model of the force container of the build without OpenMP

Transcribes `core/ForceContainerSerial.cpp` for forces and torques (moves and rotations are handled the
same way as torques without permanent part and are left out).
-/
namespace Verif.Forces.Serial
open Verif

variable {V : Type} [AddCommMonoid V]

/-- core/ForceContainer.hpp:58–66 -/
structure SC (V : Type) where
  force : Arr V
  torque : Arr V
  permForce : Arr V
  permTorque : Arr V
  size : Nat
  maxId : Nat
  permForceUsed : Bool

/-- ForceContainerSerial.cpp:3 -/
def SC.init : SC V := ⟨.empty, .empty, .empty, .empty, 0, 0, false⟩

/-- ForceContainerSerial.cpp:144–152 `resize` -/
def resize (s : SC V) (n : Nat) : SC V :=
  { s with force := s.force.resize n, torque := s.torque.resize n, permForce := s.permForce.resize n,
           permTorque := s.permTorque.resize n, size := n }

/-- ForceContainerSerial.cpp:4–10 `ensureSize` -/
def ensureSize (s : SC V) (id : Nat) : SC V :=
  let idMax := max id s.maxId
  let s := { s with maxId := 0 }
  if s.size ≤ idMax then resize s (newSize idMax) else s

/-- ForceContainerSerial.cpp:17–20 `addForce` -/
def addForce (s : SC V) (id : Nat) (v : V) : Res (SC V) := do
  let s := ensureSize s id
  let a ← s.force.add id v
  pure { s with force := a }

/-- ForceContainerSerial.cpp:27–30 `addTorque` -/
def addTorque (s : SC V) (id : Nat) (v : V) : Res (SC V) := do
  let s := ensureSize s id
  let a ← s.torque.add id v
  pure { s with torque := a }

/-- ForceContainerSerial.cpp:54–56 `addMaxId` -/
def addMaxId (s : SC V) (id : Nat) : SC V := { s with maxId := id }

/-- ForceContainerSerial.cpp:58–62 `setPermForce` -/
def setPermForce (s : SC V) (id : Nat) (v : V) : Res (SC V) := do
  let s := ensureSize s id
  let a ← s.permForce.set id v
  pure { s with permForce := a, permForceUsed := true }

/-- ForceContainerSerial.cpp:64–68 `setPermTorque` -/
def setPermTorque (s : SC V) (id : Nat) (v : V) : Res (SC V) := do
  let s := ensureSize s id
  let a ← s.permTorque.set id v
  pure { s with permTorque := a, permForceUsed := true }

/-- ForceContainerSerial.cpp:12–15 `getForce` (value; it may also enlarge the container) -/
def getForce (s : SC V) (id : Nat) : Res V := (ensureSize s id).force.get id
/-- ForceContainerSerial.cpp:22–25 `getTorque` -/
def getTorque (s : SC V) (id : Nat) : Res V := (ensureSize s id).torque.get id
/-- ForceContainerSerial.cpp:70–73 `getPermForce` -/
def getPermForce (s : SC V) (id : Nat) : Res V := (ensureSize s id).permForce.get id
/-- ForceContainerSerial.cpp:80–82 `getForceUnsynced` -/
def getForceUnsynced (s : SC V) (id : Nat) : Res V := getForce s id
/-- ForceContainerSerial.cpp:84–86 `getTorqueUnsynced`: calls `getForce` -/
def getTorqueUnsynced (s : SC V) (id : Nat) : Res V := getForce s id

/-- `a[id]+=p[id]` for `id<size` (ForceContainerSerial.cpp:120–123) -/
def addAll (a p : Arr V) (size : Nat) : Res (Arr V) :=
  if size ≤ a.len ∧ size ≤ p.len then .ok ⟨a.len, fun j => if j < size then a.at' j + p.at' j else a.at' j⟩ else .ub

/-- ForceContainerSerial.cpp:114–126 `sync` -/
def sync (s : SC V) : Res (SC V) :=
  let s := if s.maxId > 0 then { ensureSize s s.maxId with maxId := 0 } else s
  if s.permForceUsed then do
    let f ← addAll s.force s.permForce s.size
    let t ← addAll s.torque s.permTorque s.size
    pure { s with force := f, torque := t }
  else .ok s

/-- ForceContainerSerial.cpp:128–142 `reset` -/
def reset (s : SC V) (all : Bool) : Res (SC V) := do
  let f ← s.force.zero s.size
  let t ← s.torque.zero s.size
  let pf ← s.permForce.zeroIf all s.size
  let pt ← s.permTorque.zeroIf all s.size
  pure { s with force := f, torque := t, permForce := pf, permTorque := pt,
                permForceUsed := if all then false else s.permForceUsed }

end Verif.Forces.Serial
