import Mathlib.Logic.Function.Basic
import Mathlib.Logic.Relation

/-!
# Model of the background simulation thread

Transcribes `core/ThreadRunner.cpp`, `core/ThreadWorker.cpp`, `core/SimulationFlow.cpp`, the parts of `core/Omega.cpp` that use
them (105–131) and the commands of `py/wrapper/yadeWrapper.cpp` (637–662, 680) as threads that execute one instruction at a time,
in any order.

Simplifications: sequentially consistent memory (`m_looping` is read without lock in `ThreadRunner::stop`, a data race); critical
sections with a single access are one instruction that needs the mutex to be free; `ThreadWorker`'s own mutex is that of such
sections only; a step of the simulation is one action that may last arbitrarily long, may throw and may call commands (an engine
running Python code); the scene's step counter is the only thing the actions change; after `O.load` or `O.reset` has given up
the runner no further commands are given (the new runner is not modelled); `stopAtTime` is not modelled.
-/
namespace Verif.Run

/-- the mutexes: ThreadRunner.hpp 50–52 and the lock of the Python interpreter -/
inductive Mx where
  | boolM | callM | runM | gil
  deriving DecidableEq

/-- the shared variables: `m_looping`, `workerThrew` (ThreadRunner.hpp 49, 73), `m_should_terminate` (ThreadWorker.hpp 28), whether the
runner exists, `Scene::iter`, `Scene::stopAtIter`; `base`, `want` and `raised` are records for the specification: `iter` when
the last `O.run` was given, the steps it asked for, and whether `O.wait` has raised since -/
structure Glob where
  looping : Bool
  term : Bool
  threw : Bool
  alive : Bool
  iter : Nat
  stopAt : Nat
  base : Nat
  want : Nat
  raised : Bool

/-- commands: `O.run(n,wait)`, `O.pause()`, `O.wait()`, `O.step()`, `Omega::step()` (C++ only), `O.load(…)`, `O.reset()` -/
inductive Cmd where
  | run (n : Nat) (wait : Bool)
  | pause
  | wait
  | step
  | spawn
  | load
  | reset
  deriving DecidableEq

/-- where a thread is inside a command; `k` tells that the interpreter lock is kept (`O.reset`) -/
inductive CPc where
  | begin (c : Cmd)
  | runSet (n : Nat) (w : Bool) | runTest (w : Bool) | runLock (w : Bool)
  | pauseOut | pauseTest | pauseRead | pauseLock | back
  | waitTest | waitOut | waitLoop | waitBack | waitRep
  | stepTest | stepAct
  | spawnBool | spawnCall | spawnDo | spawnRel1 | spawnRel2
  | loadOut | stopTest (k : Bool) | stopRd (k : Bool) | stopLk (k : Bool)
  | dRead (k : Bool) | dLock (k : Bool) | dTerm (k : Bool) | dRun (k : Bool) | dCall (k : Bool) | dFree (k : Bool) | dFree2 (k : Bool)
  | dGone (k : Bool)
  | finish
  deriving DecidableEq

/-- where a thread is: not started, a script between commands, ended; in `ThreadRunner::run` (`l`: in its loop, otherwise in a thread
of `spawnSingleAction`); in a command, given by a script or (`some l`) by an engine inside a step; ended by an uncaught exception -/
inductive Pc where
  | unborn | idle | done | crash
  | enter | clear | test | lockCall (l : Bool) | setTerm (l : Bool) | act (l : Bool) | fin (l threw : Bool)
  | ask | caught | stopRead | stopLock | leave
  | cmd (c : CPc) (r : Option Bool)
  deriving DecidableEq

/-- state of all threads -/
structure St where
  g : Glob
  own : Mx → Option Nat
  pc : Nat → Pc

/-- instructions: lock, unlock, a step on the shared variables (with `m_boolmutex` free if `lk`, touching the runner if `touch`) that may
start a thread, waiting for a command, executing a step of the simulation, nothing, ending the program -/
inductive Instr where
  | acq (m : Mx) (k : Pc)
  | rel (m : Mx) (k : Pc)
  | op (lk touch : Bool) (f : Glob → Glob × Pc × Option Pc)
  | pick (k : Cmd → Pc)
  | action (f : Bool → Glob → Glob) (k : Bool → Pc) (sub : Option (Cmd → Pc))
  | halt
  | abort

/-- where a thread goes on after a command -/
def ret : Option Bool → Pc
  | none => .idle
  | some l => .act l

/-- first instruction of a command inside the interpreter -/
def first : Cmd → CPc
  | .run n w => .runSet n w
  | .pause => .pauseOut
  | .wait => .waitTest
  | .step => .stepTest
  | .spawn => .spawnBool
  | .load => .loadOut
  | .reset => .stopTest true

/-- entry into a command: Python commands need the interpreter lock -/
def entry (r : Option Bool) (c : Cmd) : Pc :=
  match c with
  | .spawn => .cmd .spawnBool r
  | c => .cmd (.begin c) r

/-- what comes after starting the loop in `O.run`, yadeWrapper.cpp 644 -/
def afterRun (w : Bool) : CPc := if w then .waitTest else .finish

/-- one step of the simulation: `moveToNextTimeStep` and the test of `stopAtIter`, SimulationFlow.cpp 24–25; nothing is counted if it throws -/
def flow (threw : Bool) (g : Glob) : Glob :=
  if threw then g
  else { g with iter := g.iter + 1, term := if 0 < g.stopAt ∧ g.iter + 1 = g.stopAt then true else g.term }

/-- the step of `O.step()`: `moveToNextTimeStep` only, yadeWrapper.cpp 647 -/
def bareStep (threw : Bool) (g : Glob) : Glob := if threw then g else { g with iter := g.iter + 1 }

/-- instructions of the commands -/
def codeC (r : Option Bool) : CPc → Instr
  | .begin c => .acq .gil (.cmd (first c) r)
  -- yadeWrapper.cpp 638–640
  | .runSet n w => .op false false fun g =>
      ({ g with stopAt := if n > 0 then g.iter + n else g.stopAt, base := g.iter, want := n, raised := false }, .cmd (.runTest w) r, none)
  -- Omega.cpp 120, ThreadRunner.cpp 88–89
  | .runTest w => .op true true fun g => (g, .cmd (if g.looping then afterRun w else .runLock w) r, none)
  -- ThreadRunner.cpp 72–76
  | .runLock w => .op true true fun g =>
      if g.looping then (g, .cmd (afterRun w) r, none) else ({ g with looping := true }, .cmd (afterRun w) r, some .enter)
  -- yadeWrapper.cpp 646, Omega.cpp 126–127, ThreadRunner.cpp 81–83
  | .pauseOut => .rel .gil (.cmd .pauseTest r)
  | .pauseTest => .op true true fun g => (g, .cmd (if g.looping then .pauseRead else .back) r, none)
  | .pauseRead => .op false true fun g => (g, .cmd (if g.looping then .pauseLock else .back) r, none)
  | .pauseLock => .op true true fun g => ({ g with looping := false }, .cmd .back r, none)
  | .back => .acq .gil (.cmd .finish r)
  -- yadeWrapper.cpp 649–652
  | .waitTest => .op true true fun g => (g, .cmd (if g.looping then .waitOut else .finish) r, none)
  | .waitOut => .rel .gil (.cmd .waitLoop r)
  | .waitLoop => .op true true fun g => (g, .cmd (if g.looping then .waitLoop else .waitBack) r, none)
  | .waitBack => .acq .gil (.cmd .waitRep r)
  | .waitRep => .op false true fun g => (if g.threw then { g with threw := false, raised := true } else g, .cmd .finish r, none)
  -- yadeWrapper.cpp 647
  | .stepTest => .op true true fun g => (g, .cmd (if g.looping then .finish else .stepAct) r, none)
  | .stepAct => .action bareStep (fun _ => .cmd .finish r) none
  -- Omega.cpp 112–115, ThreadRunner.cpp 63–67
  | .spawnBool => .acq .boolM (.cmd .spawnCall r)
  | .spawnCall => .acq .callM (.cmd .spawnDo r)
  | .spawnDo => .op false true fun g => (g, .cmd .spawnRel1 r, if g.looping then none else some (.lockCall false))
  | .spawnRel1 => .rel .callM (.cmd .spawnRel2 r)
  | .spawnRel2 => .rel .boolM (ret r)
  -- yadeWrapper.cpp 657
  | .loadOut => .rel .gil (.cmd (.stopTest false) r)
  -- Omega.cpp 107, ThreadRunner.cpp 81–83
  | .stopTest k => .op true true fun g => (g, .cmd (if g.looping then .stopRd k else .dRead k) r, none)
  | .stopRd k => .op false true fun g => (g, .cmd (if g.looping then .stopLk k else .dRead k) r, none)
  | .stopLk k => .op true true fun g => ({ g with looping := false }, .cmd (.dRead k) r, none)
  -- Omega.cpp 108: destructor, ThreadRunner.cpp 94–96, 57–58, 81–83
  | .dRead k => .op false true fun g => (g, .cmd (if g.looping then .dLock k else .dTerm k) r, none)
  | .dLock k => .op true true fun g => ({ g with looping := false }, .cmd (.dTerm k) r, none)
  | .dTerm k => .op false true fun g => ({ g with term := true }, .cmd (.dRun k) r, none)
  | .dRun k => .acq .runM (.cmd (.dCall k) r)
  | .dCall k => .acq .callM (.cmd (.dFree k) r)
  | .dFree k => .rel .callM (.cmd (.dFree2 k) r)
  | .dFree2 k => .rel .runM (.cmd (.dGone k) r)
  | .dGone k => .op false false fun g => ({ g with alive := false }, .cmd (if k then .finish else .back) r, none)
  | .finish => .rel .gil (ret r)

/-- the instruction at each place -/
def code : Pc → Instr
  | .unborn => .halt
  | .done => .halt
  | .crash => .abort
  | .idle => .pick (entry none)
  -- ThreadRunner.cpp 22–25
  | .enter => .acq .runM .clear
  | .clear => .op false true fun g => ({ g with threw := false }, .test, none)
  | .test => .op true true fun g => (g, if g.looping then .lockCall true else .leave, none)
  -- ThreadRunner.cpp 50–52
  | .lockCall l => .acq .callM (.setTerm l)
  | .setTerm l => .op false true fun g => ({ g with term := false }, .act l, none)
  | .act l => .action flow (fun threw => .fin l threw) (some (entry (some l)))
  -- end of `call`: the thread of a single action ends, an exception is caught in `run` only
  | .fin l threw => .rel .callM (if threw then (if l then .caught else .crash) else (if l then .ask else .done))
  -- ThreadRunner.cpp 27
  | .ask => .op false true fun g => (g, if g.term then .stopRead else .test, none)
  -- ThreadRunner.cpp 31
  | .caught => .op false true fun g => ({ g with threw := true }, .stopRead, none)
  -- ThreadRunner.cpp 81–83
  | .stopRead => .op false true fun g => (g, if g.looping then .stopLock else .leave, none)
  | .stopLock => .op true true fun g => ({ g with looping := false }, .leave, none)
  | .leave => .rel .runM .done
  | .cmd c r => codeC r c

/-- what is left open: the number of a new thread, the next command, how a step ends -/
inductive Choice where
  | go (u : Nat)
  | call (c : Cmd)
  | finish (threw : Bool)

/-- outcome of an attempt to execute an instruction -/
inductive Out where
  | blocked
  | ub
  | abort
  | ok (s : St)

/-- whether a mutex is part of the runner -/
def Mx.inRunner : Mx → Bool
  | .gil => false
  | _ => true

/-- thread `t` executes one instruction -/
def step (s : St) (t : Nat) (ch : Choice) : Out :=
  match code (s.pc t), ch with
  | .acq m k, .go _ =>
    if m.inRunner = true ∧ s.g.alive = false then .ub
    else if s.own m = none then .ok { s with own := Function.update s.own m (some t), pc := Function.update s.pc t k } else .blocked
  | .rel m k, .go _ =>
    if m.inRunner = true ∧ s.g.alive = false then .ub
    else .ok { s with own := Function.update s.own m none, pc := Function.update s.pc t k }
  | .op lk touch f, .go u =>
    if touch = true ∧ s.g.alive = false then .ub
    else if lk = true ∧ s.own .boolM ≠ none then .blocked
    else match (f s.g).2.2 with
      | none => .ok { s with g := (f s.g).1, pc := Function.update s.pc t (f s.g).2.1 }
      | some p =>
        if s.pc u = .unborn then .ok { s with g := (f s.g).1, pc := Function.update (Function.update s.pc t (f s.g).2.1) u p }
        else .blocked
  | .pick k, .call c => if s.g.alive then .ok { s with pc := Function.update s.pc t (k c) } else .blocked
  | .action f k _, .finish threw => .ok { s with g := f threw s.g, pc := Function.update s.pc t (k threw) }
  | .action _ _ (some k), .call c => .ok { s with pc := Function.update s.pc t (k c) }
  | .abort, .go _ => .abort
  | _, _ => .blocked

/-- a new runner and idle scripts -/
def init (scripts : List Nat) (iter : Nat) : St where
  g := ⟨false, false, false, true, iter, 0, iter, 0, false⟩
  own := fun _ => none
  pc := fun t => if t ∈ scripts then .idle else .unborn

/-- states reached with choices permitted by `P` -/
inductive Reach (P : St → Nat → Choice → Prop) (s0 : St) : St → Prop where
  | start : Reach P s0 s0
  | next {s s' : St} {t : Nat} {ch : Choice} : Reach P s0 s → P s t ch → step s t ch = .ok s' → Reach P s0 s'

/-- a schedule executed from a state -/
def exec : St → List (Nat × Choice) → Out
  | s, [] => .ok s
  | s, (t, ch) :: l => match step s t ch with
    | .ok s' => exec s' l
    | o => o

end Verif.Run
