import Verif.Base
import Mathlib.Algebra.Order.Floor.Ring
import Mathlib.Algebra.Order.Field.Basic
/-!
# Model of the interaction loop

Transcribes `InteractionLoop::action` (pkg/common/InteractionLoop.cpp), the life cycle of `Interaction`
(core/Interaction.{hpp,cpp}), `requestErase` (core/InteractionContainer.cpp) and the explicit creation of
interactions (`IGeomDispatcher::explicitAction`, `Shop::createExplicitInteraction`).

Simplifications:
* the functors (geometry, physics, law) are arbitrary functions, their lookup by class (C21, C66) is an arbitrary function
  of the classes;
* the passes of different threads touch different interactions; the loop is a map over the interactions;
* `geom` and `phys` are values of arbitrary types; forces written by laws are part of `C14`/`C16`.
-/
namespace Verif.Loop
open Verif

variable {G Ph : Type}

/-- core/Interaction.hpp 19–61: ids, `geom`, `phys`, the functor cache (47–54), `iterMadeReal`, `iterLastSeen`, `cellDist` -/
structure Intr (G Ph : Type) where
  id1 : Nat
  id2 : Nat
  geom : Option G
  phys : Option Ph
  geomExists : Bool
  cg : Option Nat
  cp : Option Nat
  cl : Option Nat
  madeReal : Int
  lastSeen : Int
  dist : Fin 3 → Int

/-- core/Interaction.hpp 20 `isReal` -/
def Intr.isReal (I : Intr G Ph) : Bool := I.geom.isSome && I.phys.isSome

/-- core/Interaction.cpp 19–32 `init`, `reset` -/
def Intr.reset (I : Intr G Ph) : Intr G Ph :=
  { I with geom := none, phys := none, cg := none, cp := none, cl := none, madeReal := -1, geomExists := true }

/-- core/Interaction.cpp 15: the constructor -/
def Intr.new (id1 id2 : Nat) : Intr G Ph := ⟨id1, id2, none, none, true, none, none, none, -1, -1, fun _ => 0⟩

/-- core/Interaction.cpp 35–41 `swapOrder` -/
def Intr.swapOrder (I : Intr G Ph) : Res (Intr G Ph) :=
  if I.geom.isSome || I.phys.isSome then .throws
  else .ok { I with id1 := I.id2, id2 := I.id1, dist := fun a => I.dist a * -1 }

/-- what the loop reads of a body, core/Body.hpp: `subdomain`, `isClump()`, the class of the shape, of the material -/
structure Bdy where
  sub : Int
  clump : Bool
  shape : Option Nat
  mat : Nat

/-- result of a law functor: the returned value, whether it called `requestErase` itself, and what it left in `geom` and `phys` -/
structure LawRes (G Ph : Type) where
  keep : Bool
  erased : Bool
  geom : G
  phys : Ph

/-- the scene and the functors in one pass: `scene->iter`, `iterColliderLastRun`, `isPeriodic`, `scene->subdomain`, bodies, lookups in the three
dispatchers, `go` of the functors (geometry: functor, the two bodies, shift in periods, old geometry), which callbacks are active -/
structure Env (G Ph : Type) where
  iter : Int
  lastRun : Int
  periodic : Bool
  sub : Int
  body : Nat → Option Bdy
  geomDisp : Nat → Nat → Option (Nat × Bool)
  physDisp : Nat → Nat → Option Nat
  lawDisp : G → Ph → Option Nat
  geomGo : Nat → Nat → Nat → (Fin 3 → Int) → Option G → Bool × Option G
  physGo : Nat → Nat → Nat → G → Option Ph → Option Ph
  lawGo : Nat → Intr G Ph → G → Ph → LawRes G Ph
  callbacks : List Bool

/-- observable calls -/
inductive Ev (G Ph : Type)
  /-- the pair is put on the list of `eraseAfterLoop` -/
  | later (id1 id2 : Nat)
  /-- functor `f` computes the geometry for the bodies `id1`, `id2` of shapes `s1`, `s2` -/
  | geom (f id1 id2 s1 s2 : Nat) (dist : Fin 3 → Int)
  /-- law `f` is applied to the interaction `I` -/
  | law (f : Nat) (I : Intr G Ph) (g : G) (p : Ph)
  /-- callback `k` is called with the interaction -/
  | callback (k : Nat) (I : Intr G Ph)

/-- how the body of the loop ends for one interaction: normally, by an exception, by `exit(1)`, or undefined -/
inductive Out (G Ph : Type)
  | done (I : Intr G Ph) (ev : List (Ev G Ph))
  | throws (I : Intr G Ph) (ev : List (Ev G Ph))
  | exits
  | ub

/-- InteractionLoop.cpp 56, 69: `removeUnseenIntrs && !I->isReal() && I->iterLastSeen<scene->iter` -/
def unseen (E : Env G Ph) (I : Intr G Ph) : Bool :=
  decide (E.lastRun ≥ 0) && decide (E.lastRun = E.iter) && !I.isReal && decide (I.lastSeen < E.iter)

/-- InteractionLoop.cpp 164–166: the active callbacks, from number `k` on -/
def callAll (I : Intr G Ph) : List Bool → Nat → List (Ev G Ph)
  | [], _ => []
  | b :: l, k => if b then .callback k I :: callAll I l (k + 1) else callAll I l (k + 1)

/-- InteractionLoop.cpp 145–166: lookup and call of the law, callbacks.  Null arguments of the lookup are dereferenced. -/
def applyLaw (E : Env G Ph) (I : Intr G Ph) (ev : List (Ev G Ph)) : Out G Ph :=
  match I.geom, I.phys with
  | some g, some p =>
    match (match I.cl with | some l => some l | none => E.lawDisp g p) with
    | none => .exits
    | some l =>
      let I := { I with cl := some l }
      let r := E.lawGo l I g p
      let ev := ev ++ [.law l I g p]
      let I := if r.erased then I.reset else { I with geom := some r.geom, phys := some r.phys }
      let I := if r.keep then I else I.reset
      if I.isReal then .done I (ev ++ callAll I E.callbacks 0) else .done I ev
  | _, _ => .ub

/-- InteractionLoop.cpp 110–143: geometry and physics for the bodies in the order of the functor `f` -/
def contact (E : Env G Ph) (I : Intr G Ph) (f s1 s2 m1 m2 : Nat) : Out G Ph :=
  let was := I.isReal
  let d := if E.periodic then I.dist else fun _ => 0
  let r := E.geomGo f I.id1 I.id2 d I.geom
  let ev := [Ev.geom f I.id1 I.id2 s1 s2 d]
  let I := { I with geom := r.2 }
  if !r.1 then .done (if was then I.reset else I) ev
  else
    match (match I.cp with | some p => some p | none => E.physDisp m1 m2) with
    | none => .throws I ev
    | some p =>
      match I.geom with
      | none => .ub
      | some g =>
        let made := if !was then E.iter else I.madeReal
        let I := { I with cp := some p, phys := E.physGo p I.id1 I.id2 g I.phys, madeReal := made }
        applyLaw E I ev

/-- InteractionLoop.cpp 61–167: the body of the loop for one interaction -/
def process (E : Env G Ph) (I : Intr G Ph) : Out G Ph :=
  if unseen E I then .done I [.later I.id1 I.id2]
  else
    match E.body I.id1, E.body I.id2 with
    | some b1, some b2 =>
      if E.sub ≠ b1.sub ∧ E.sub ≠ b2.sub then .done I.reset []
      else if b1.clump || b2.clump then .done I []
      else if !I.geomExists then .done I []
      else
        match b1.shape, b2.shape with
        | some s1, some s2 =>
          match (match I.cg with | some f => some (f, false) | none => E.geomDisp s1 s2) with
          | none => .done { I with geomExists := false } []
          | some (f, swap) =>
            let I := { I with cg := some f }
            if swap then
              match I.swapOrder with
              | .ok I => contact E I f s2 s1 b2.mat b1.mat
              | _ => .throws I []
            else contact E I f s1 s2 b1.mat b2.mat
        | _, _ => .done I []
    | _, _ => .done I.reset []

/-- InteractionLoop.cpp 58–168: all interactions in turn; `none` for an abnormal end -/
def runLoop (E : Env G Ph) : List (Intr G Ph) → Option (List (Intr G Ph) × List (Ev G Ph))
  | [] => some ([], [])
  | I :: Is =>
    match process E I with
    | .done I' ev => (runLoop E Is).map fun r => (I' :: r.1, ev ++ r.2)
    | _ => none

/-! ## Explicit creation -/

section
variable {R : Type} [Field R] [LinearOrder R] [IsStrictOrderedRing R] [FloorRing R]

/-- conversion from `Real` to `int` by truncation (32 bit overflow not modelled) -/
def trunc (x : R) : Int := if 0 ≤ x then ⌊x⌋ else ⌈x⌉

/-- pkg/common/Dispatching.cpp 69–72: the shift chosen for bodies at `p1`, `p2` in a cell of sizes `sz` -/
def explicitDist (periodic : Bool) (sz p1 p2 : Fin 3 → R) : Fin 3 → Int :=
  if periodic then fun a => -trunc ((p2 a - p1 a) / sz a + 1 / 2) else fun _ => 0

/-- pkg/common/Dispatching.cpp 67–95 `IGeomDispatcher::explicitAction` for bodies `id1`, `id2` of shapes `s1`, `s2`; `none` for a missing
shape; `dist` is the shift computed above, `go` the geometry functors called with functor, bodies and the shift in periods that `shift2`
stands for.  Without `force` the functor is not looked up: a null pointer is dereferenced. -/
def explicitGeom (geomDisp : Nat → Nat → Option (Nat × Bool)) (go : Nat → Nat → Nat → (Fin 3 → Int) → Option G → Bool × Option G)
    (force : Bool) (id1 id2 : Nat) (s1 s2 : Option Nat) (dist : Fin 3 → Int) : Res (Intr G Ph) :=
  let I : Intr G Ph := { Intr.new id1 id2 with dist := dist }
  match s1, s2 with
  | some s1, some s2 =>
    if force then
      match geomDisp s1 s2 with
      | none => .throws
      | some (f, swap) =>
        let I := { I with cg := some f }
        (if swap then I.swapOrder else .ok I).bind fun I =>
          let r := go f I.id1 I.id2 dist I.geom
          if r.1 then .ok { I with geom := r.2 } else .throws
    else .ub
  | _, _ => if force then .ub else .ok I

/-- pkg/common/Dispatching.cpp 141–150 `IPhysDispatcher::explicitAction` and pkg/dem/Shop_02.cpp 117–126: the interaction is given its
physics, `iterMadeReal`, and is inserted; `exists` tells whether there is one for this pair, `b1`, `b2` are the bodies -/
def explicitCreate (geomDisp : Nat → Nat → Option (Nat × Bool)) (physDisp : Nat → Nat → Option Nat)
    (go : Nat → Nat → Nat → (Fin 3 → Int) → Option G → Bool × Option G) (physGo : Nat → Nat → Nat → G → Option Ph → Option Ph)
    (iter : Int) (there force : Bool) (id1 id2 : Nat) (b1 b2 : Option Bdy) (dist : Fin 3 → Int) : Res (Intr G Ph) :=
  if there then .throws
  else match b1, b2 with
    | some b1, some b2 =>
      (explicitGeom geomDisp go force id1 id2 b1.shape b2.shape dist).bind fun I : Intr G Ph =>
        match I.geom with
        | none => .throws
        | some g =>
          match physDisp b1.mat b2.mat with
          | none => .throws
          | some p => .ok { I with cp := some p, phys := physGo p I.id1 I.id2 g I.phys, madeReal := iter }
    | _, _ => .throws

end

end Verif.Loop
