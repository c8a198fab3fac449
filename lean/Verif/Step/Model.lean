import Mathlib.Algebra.Group.Defs
import Verif.Base
/-!
# Model of the time step of a scene

Transcribes `core/Scene.cpp:71–139` (`moveToNextTimeStep`), the python accessors of `O.engines`
(`py/wrapper/yadeWrapper.cpp:731–737`), `core/SimulationFlow.cpp:16–27` (`singleAction`) and the loop of
`core/ThreadRunner.cpp:19–53`.

What engines and the prologue compute is a parameter (`Beh`): an engine transforms an arbitrary world
state, may assign `O.engines`, may switch `O.subStepping`, and may raise an exception.

Simplifications: timing and speed statistics (Scene.cpp:91–92, 98, 101–113, 120) and the one-time consistency
check (72–75) are left out; engines do not call `O.step()` and do not change `iter`/`subStep`; `engine turn`
includes the test `dead || !isActivated()` (96, 131), i.e. a turn of such an engine does nothing.
-/
namespace Verif.Step
open Verif

/-- effect of one engine turn -/
structure Act (E W : Type) where
  w : W
  /-- `O.engines=…` executed during the turn -/
  assign : Option (List E)
  /-- `O.subStepping=…` executed during the turn -/
  sub : Option Bool
  /-- the turn ends with an exception -/
  raises : Bool

/-- behaviour of the engines, of the prologue (`cell->integrateAndUpdate` if periodic), and the value of `dt` -/
structure Beh (E W T : Type) where
  act : E → W → Act E W
  pro : W → W
  dt : W → T

/-- what happened, in order -/
inductive Ev (E : Type) where
  | pro
  | eng (e : E)
  | epi
  deriving DecidableEq

/-- the fields of `Scene` involved (core/Scene.hpp:77–96); `log` is a ghost record of completed events -/
structure Sc (E W T : Type) where
  engines : List E
  next : List E
  subStep : Int
  subStepping : Bool
  iter : Nat
  time : T
  w : W
  log : List (Ev E)

/-- end of a call: normal, or by exception (the state stays as it is) -/
inductive Out (S : Type) where
  | ok (s : S)
  | raised (s : S)

variable {E W T : Type}

/-- py/wrapper/yadeWrapper.cpp:731 `engines_get` -/
def enginesGet (s : Sc E W T) : List E := if s.next.isEmpty then s.engines else s.next

/-- py/wrapper/yadeWrapper.cpp:732–737 `engines_set` -/
def enginesSet (s : Sc E W T) (l : List E) : Sc E W T :=
  if s.subStep < 0 then { s with engines := l } else { s with next := l }

/-- py/wrapper/yadeWrapper.cpp:610 `subStepping_set` -/
def setSub (s : Sc E W T) (b : Bool) : Sc E W T := { s with subStepping := b }

/-- assignment of `O.engines` made inside an engine, if any -/
def assignOpt (s : Sc E W T) : Option (List E) → Sc E W T
  | some l => enginesSet s l
  | none => s

/-- assignment of `O.subStepping` made inside an engine, if any -/
def subOpt (s : Sc E W T) : Option Bool → Sc E W T
  | some b => setSub s b
  | none => s

/-- one engine turn, `if(e->dead || !e->isActivated()) continue; e->action();` (Scene.cpp:95–97, 131) -/
def turn (B : Beh E W T) (s : Sc E W T) (e : E) : Out (Sc E W T) :=
  let a := B.act e s.w
  let s := subOpt (assignOpt { s with w := a.w } a.assign) a.sub
  if a.raises then .raised s else .ok { s with log := s.log ++ [.eng e] }

/-- the loop over engines without sub-stepping (Scene.cpp:94–99) -/
def turns (B : Beh E W T) (s : Sc E W T) : List E → Out (Sc E W T)
  | [] => .ok s
  | e :: es => match turn B s e with
    | .ok s' => turns B s' es
    | .raised s' => .raised s'

/-- prologue (Scene.cpp:89, 129) -/
def prologue (B : Beh E W T) (s : Sc E W T) : Sc E W T := { s with w := B.pro s.w, log := s.log ++ [.pro] }

/-- `iter++; time+=dt;` (Scene.cpp:115–116, 133) -/
def epilogue [Add T] (B : Beh E W T) (s : Sc E W T) : Sc E W T :=
  { s with iter := s.iter + 1, time := s.time + B.dt s.w, log := s.log ++ [.epi] }

/-- Scene.cpp:79–84 -/
def adopt (s : Sc E W T) : Sc E W T :=
  if !s.next.isEmpty && (decide (s.subStep < 0) || (decide (s.subStep ≤ 0) && !s.subStepping)) then
    { s with engines := s.next, next := [], subStep := -1 }
  else s

/-- one round of the loop Scene.cpp:126–136 -/
def micro [Add T] (B : Beh E W T) (s : Sc E W T) (subs : Int) : Out (Sc E W T) :=
  if subs = -1 then .ok (prologue B s)
  else if subs ≥ 0 ∧ subs < s.engines.length then
    match s.engines[subs.toNat]? with
    | some e => turn B s e
    | none => .ok s
  else if subs = s.engines.length then .ok { epilogue B s with subStep := -2 }
  else .ok s

/-- the loop Scene.cpp:126–136, `n` rounds starting with `subs` -/
def micros [Add T] (B : Beh E W T) (s : Sc E W T) (subs : Int) : Nat → Out (Sc E W T)
  | 0 => .ok s
  | n + 1 => match micro B s subs with
    | .ok s' => micros B s' (subs + 1) n
    | .raised s' => .raised s'

/-- Scene.cpp:121 -/
def clampSub (s : Sc E W T) : Sc E W T :=
  if s.subStep < -1 ∨ s.subStep > s.engines.length then { s with subStep := -1 } else s

/-- Scene.cpp:85–117, a whole step -/
def wholeStep [Add T] (B : Beh E W T) (s : Sc E W T) : Out (Sc E W T) :=
  let s := prologue B { s with subStep := 0 }
  match turns B s s.engines with
  | .ok s => .ok { epilogue B s with subStep := -1 }
  | .raised s => .raised s

/-- Scene.cpp:118–138, one sub-step or the rest of the step -/
def partStep [Add T] (B : Beh E W T) (s : Sc E W T) : Out (Sc E W T) :=
  let s := clampSub s
  let maxSub : Int := if s.subStepping then s.subStep else s.engines.length
  match micros B s s.subStep (maxSub - s.subStep + 1).toNat with
  | .ok s => .ok { s with subStep := s.subStep + 1 }
  | .raised s => .raised s

/-- core/Scene.cpp:71–139 `moveToNextTimeStep` -/
def move [Add T] (B : Beh E W T) (s : Sc E W T) : Out (Sc E W T) :=
  let s := adopt s
  if !s.subStepping && decide (s.subStep < 0) then wholeStep B s else partStep B s

/-! ### Continuous run -/

/-- core/SimulationFlow.cpp:16–27 with `stopAtIter`, `stopAtTime`: state and whether to terminate -/
def singleAction [Add T] [LT T] [DecidableLT T] [DecidableEq T] [Zero T] (B : Beh E W T) (stopIter : Int)
    (stopTime : T) (s : Sc E W T) : Out (Sc E W T × Bool) :=
  match move B { s with subStepping := false } with
  | .ok s => .ok (s, (decide (stopIter > 0) && decide ((s.iter : Int) = stopIter)) ||
      (decide ((0 : T) < stopTime) && decide (s.time = stopTime)))
  | .raised s => .raised (s, true)

/-- core/ThreadRunner.cpp:25–28: at most `n` rounds; the flag tells whether the loop has ended -/
def loop [Add T] [LT T] [DecidableLT T] [DecidableEq T] [Zero T] (B : Beh E W T) (stopIter : Int) (stopTime : T) :
    Nat → Sc E W T → Sc E W T × Bool
  | 0, s => (s, false)
  | n + 1, s => match singleAction B stopIter stopTime s with
    | .ok (s', false) => loop B stopIter stopTime n s'
    | .ok (s', true) => (s', true)
    | .raised (s', _) => (s', true)

/-- py/wrapper/yadeWrapper.cpp:639: the iteration at which `O.run(n)` asks to stop -/
def runStop (s : Sc E W T) (n : Nat) (old : Int) : Int := if n > 0 then (s.iter : Int) + n else old

end Verif.Step
