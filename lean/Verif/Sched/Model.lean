import Verif.Base
/-!
# Model of periodic engines (pkg/common/PeriodicEngines.hpp)

`R` is the type of times in seconds; only `0`, `-`, `<` and `≤` on it are used, so nothing is assumed
about rounding.  The wall clock and the state of the simulation are inputs of each poll.
-/
namespace Verif.Sched
open Verif

/-- PeriodicEngines.hpp:67–72: the attributes set by the user. -/
structure Par (R : Type) where
  virtPeriod : R
  realPeriod : R
  iterPeriod : Int
  nDo : Int
  initRun : Bool
  firstIterRun : Int

/-- PeriodicEngines.hpp:73–76: the attributes updated by the engine. -/
structure Eng (R : Type) where
  virtLast : R
  realLast : R
  iterLast : Int
  nDone : Int

/-- PeriodicEngines.hpp:14–16: simulation time, wall clock and step number at a poll. -/
structure Now (R : Type) where
  virt : R
  real : R
  iter : Int

variable {R : Type} [Zero R] [Sub R] [LE R] [LT R] [DecidableLE R] [DecidableLT R]

/-- PeriodicEngines.hpp:73–77: a new engine; `clock` is the wall clock when it was constructed. -/
def fresh (clock : R) : Eng R := { virtLast := 0, realLast := clock, iterLast := 0, nDone := 0 }

/-- PeriodicEngines.hpp:28–30: some active period has elapsed. -/
def elapsed (p : Par R) (e : Eng R) (n : Now R) : Bool :=
  (decide (p.virtPeriod > 0) && decide (n.virt - e.virtLast ≥ p.virtPeriod)) ||
  (decide (p.realPeriod > 0) && decide (n.real - e.realLast ≥ p.realPeriod)) ||
  (decide (p.iterPeriod > 0) && decide (n.iter - e.iterLast ≥ p.iterPeriod))

/-- PeriodicEngines.hpp:20, 31, 36: `realLast=realNow; virtLast=virtNow; iterLast=iterNow; nDone++`. -/
def mark (e : Eng R) (n : Now R) : Eng R :=
  { virtLast := n.virt, realLast := n.real, iterLast := n.iter, nDone := e.nDone + 1 }

/-- PeriodicEngines.hpp:13–41 `PeriodicEngine::isActivated`: the new state and whether the engine runs. -/
def poll (p : Par R) (e : Eng R) (n : Now R) : Eng R × Bool :=
  if p.firstIterRun > 0 ∧ e.nDone = 0 then
    if p.firstIterRun = n.iter then (mark e n, true) else (e, false)
  else
    let e := if n.iter < e.iterLast then { e with nDone := 0 } else e
    if (p.nDo < 0 ∨ e.nDone < p.nDo) ∧ elapsed p e n = true then (mark e n, true)
    else if e.nDone = 0 then (mark e n, p.initRun)
    else (e, false)

/-- core/Scene.cpp:96: the polls at which the engine ran, in order. -/
def runs (p : Par R) (e : Eng R) : List (Now R) → List (Now R)
  | [] => []
  | n :: ns => if (poll p e n).2 then n :: runs p (poll p e n).1 ns else runs p (poll p e n).1 ns

end Verif.Sched
