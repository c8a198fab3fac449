import Verif.Base
import Mathlib.Data.Fin.VecNotation
import Mathlib.Order.BoundedOrder.Basic
import Mathlib.Order.Lattice
/-!
# Exchange of body states between processes

Transcribes `core/Subdomain.hpp` 30–117 (states and bounds to and from flat messages) and `core/Subdomain.cpp` 19–33 (the box of a
subdomain).  Numbers are only copied and compared, so the type `R` of numbers is arbitrary: it may be the machine's doubles
(`Real` is `double` in the default build, so that `std::vector<double>` holds it unchanged).

Simplifications: the products `N*13`, `k*13` of unsigned integers do not wrap around; a body has a state.
-/
namespace Verif.Mpi
open Verif

variable {R E : Type}

/-- a vector of three numbers, lib/base/Math.hpp `Vector3r` -/
abbrev Vec (R : Type) := Fin 3 → R

/-- lib/base/Math.hpp `Quaternionr`; the fields in the order of Eigen's constructor -/
@[ext] structure Qt (R : Type) where
  w : R
  x : R
  y : R
  z : R

/-- Eigen's `coeffs()`: the order of storage -/
def Qt.coeffs (q : Qt R) : Fin 4 → R := ![q.x, q.y, q.z, q.w]

/-- core/State.hpp 26–60: the exchanged attributes and the angular momentum -/
@[ext] structure St (R : Type) where
  pos : Vec R
  vel : Vec R
  angVel : Vec R
  ori : Qt R
  angMom : Vec R

/-- core/Bound.hpp 25–34: the corners; `extra` stands for `lastUpdateIter`, `refPos`, `sweepLength` (`none` for the values of a new bound) -/
@[ext] structure Bnd (R : Type) where
  min : Vec R
  max : Vec R
  extra : Option Nat

/-- core/Body.hpp 78–100: state, bound, subdomain and flags; `rest` stands for everything else -/
structure Bdy (R E : Type) where
  st : St R
  bound : Option (Bnd R)
  subdomain : Int
  isSubdomain : Bool
  bounded : Bool
  rest : E

/-- core/BodyContainer.hpp 57–75: bodies by id, `none` for an erased body -/
abbrev Bodies (R E : Type) := List (Option (Bdy R E))

/-- `(*(scene->bodies))[id]` followed by `->` (BodyContainer.hpp 71–72): no check of the index, no check for null -/
def deref (B : Bodies R E) (id : Int) : Res (Bdy R E) :=
  if 0 ≤ id then match B[id.toNat]? with
    | some (some b) => .ok b
    | _ => .ub
  else .ub

/-- the assignment through the shared pointer -/
def store (B : Bodies R E) (id : Int) (b : Bdy R E) : Bodies R E := B.set id.toNat (some b)

/-- Subdomain.hpp 37–40 -/
def encState (s : St R) : List R :=
  [s.pos 0, s.pos 1, s.pos 2, s.vel 0, s.vel 1, s.vel 2, s.angVel 0, s.angVel 1, s.angVel 2,
    s.ori.coeffs 0, s.ori.coeffs 1, s.ori.coeffs 2, s.ori.coeffs 3]

/-- Subdomain.hpp 31–42 `getStateValuesFromIds` -/
def getStates (B : Bodies R E) : List Int → Res (List R)
  | [] => .ok []
  | id :: ids => (deref B id).bind fun b => (getStates B ids).bind fun r => .ok (encState b.st ++ r)

/-- Subdomain.hpp 58–65 -/
def encBound [Zero R] (b : Option (Bnd R)) : List R :=
  match b with
  | some b => [b.min 0, b.min 1, b.min 2, b.max 0, b.max 1, b.max 2]
  | none => [0, 0, 0, 0, 0, 0]

/-- Subdomain.hpp 46–68 `getStateBoundsValuesFromIds` -/
def getStateBounds [Zero R] (B : Bodies R E) : List Int → Res (List R)
  | [] => .ok []
  | id :: ids => (deref B id).bind fun b => (getStateBounds B ids).bind fun r => .ok (encState b.st ++ encBound b.bound ++ r)

/-- `input[i]` of a `std::vector`: no check -/
def at' (input : List R) (i : Nat) : Res R :=
  match input[i]? with
  | some x => .ok x
  | none => .ub

/-- `Vector3r(input[i],input[i+1],input[i+2])` -/
def vecAt (input : List R) (i : Nat) : Res (Vec R) :=
  (at' input i).bind fun a => (at' input (i + 1)).bind fun b => (at' input (i + 2)).bind fun c => .ok ![a, b, c]

/-- Subdomain.hpp 89–92: four assignments to the state of body `b`, reading from `idx` on -/
def decState (input : List R) (idx : Nat) (s : St R) : Res (St R) :=
  (vecAt input idx).bind fun pos => (vecAt input (idx + 3)).bind fun vel => (vecAt input (idx + 6)).bind fun angVel =>
  (at' input (idx + 12)).bind fun w => (at' input (idx + 9)).bind fun x => (at' input (idx + 10)).bind fun y =>
  (at' input (idx + 11)).bind fun z => .ok { s with pos := pos, vel := vel, angVel := angVel, ori := ⟨w, x, y, z⟩ }

/-- Subdomain.hpp 86–93: round `k` of the loop and the following ones -/
def setLoop (input : List R) : Nat → List Int → Bodies R E → Res (Bodies R E)
  | _, [], B => .ok B
  | k, id :: ids, B => (deref B id).bind fun b => (decState input (k * 13) b.st).bind fun s =>
    setLoop input (k + 1) ids (store B id { b with st := s })

/-- Subdomain.hpp 82–94 `setStateValuesFromIds`; a wrong size is only logged (85) -/
def setStates (ids : List Int) (input : List R) (B : Bodies R E) : Res (Bodies R E) := setLoop input 0 ids B

/-- Subdomain.hpp 101–116: round `k` of the loop and the following ones; a bound is created if there is none (111–113) -/
def setBoundsLoop (input : List R) : Nat → List Int → Bodies R E → Res (Bodies R E)
  | _, [], B => .ok B
  | k, id :: ids, B => (deref B id).bind fun b => (decState input (k * 19) b.st).bind fun s =>
    (vecAt input (k * 19 + 13)).bind fun mn => (vecAt input (k * 19 + 16)).bind fun mx =>
    setBoundsLoop input (k + 1) ids (store B id { b with st := s, bound := some ⟨mn, mx, (b.bound.map (·.extra)).getD none⟩ })

/-- Subdomain.hpp 96–117 `setStateBoundsValuesFromIds` -/
def setStateBounds (ids : List Int) (input : List R) (B : Bodies R E) : Res (Bodies R E) := setBoundsLoop input 0 ids B

/-- `cwiseMax`, Subdomain.cpp 30 -/
def cwiseMax [Max R] (a b : Vec R) : Vec R := fun i => max (a i) (b i)
/-- `cwiseMin`, Subdomain.cpp 31 -/
def cwiseMin [Min R] (a b : Vec R) : Vec R := fun i => min (a i) (b i)

/-- `Body::byId(id,scene)` (core/Body.cpp 10): the pointer, no check of the index -/
def byId (B : Bodies R E) (id : Int) : Res (Option (Bdy R E)) :=
  if 0 ≤ id then match B[id.toNat]? with
    | some b => .ok b
    | none => .ub
  else .ub

/-- Subdomain.cpp 27–32 -/
def minMaxLoop [Max R] [Min R] (B : Bodies R E) : List Int → Vec R × Vec R → Res (Vec R × Vec R)
  | [], m => .ok m
  | id :: ids, m => (byId B id).bind fun
    | none => minMaxLoop B ids m
    | some b => match b.bound with
      | none => minMaxLoop B ids m
      | some bd => minMaxLoop B ids (cwiseMin m.1 bd.min, cwiseMax m.2 bd.max)

/-- Subdomain.cpp 19–33 `setMinMax`: corners of the box of a subdomain with members `ids`.  `⊤`, `⊥` stand for the infinities.  Line 26
dereferences the first member. -/
def setMinMax [Max R] [Min R] [Top R] [Bot R] (B : Bodies R E) (ids : List Int) : Res (Vec R × Vec R) :=
  match ids with
  | [] => .ok (fun _ => ⊤, fun _ => ⊥)
  | id :: _ => (deref B id).bind fun _ => minMaxLoop B ids (fun _ => ⊤, fun _ => ⊥)

end Verif.Mpi
