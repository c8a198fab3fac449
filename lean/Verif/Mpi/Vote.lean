import Verif.Base
/-!
# The vote on collision detection

Transcribes `checkColliderActivated` (`py/mpy.py` 118–129) running on `n` processes, called again and again (once per step: mpy.py 536,
556).  A call broadcasts the answers of processes 0, 1, … in turn and stops at the first "yes", so that how many broadcasts there are
depends on the answers.

Broadcasts (`comm.bcast`, MPI_Bcast): the j-th broadcast of each process is the same operation; a process that names another root than the
root does has broken the rules (`bad`).  The root does not wait for the others; the others wait for the root.
-/
namespace Verif.Mpi.Vote

/-- `call p`: finished calls of process `p`; `sd p`: loop variable of the call it is in; `hist p`: roots of the broadcasts it has taken part
in; `res p`: results of its finished calls; `log j`: root and value of broadcast `j` once its root has arrived; `bad`: the rules have been
broken -/
structure Vote where
  call : Nat → Nat
  sd : Nat → Nat
  hist : Nat → List Nat
  res : Nat → List Bool
  log : Nat → Option (Nat × Bool)
  bad : Bool

/-- before the first call -/
def idle : Vote := ⟨fun _ => 0, fun _ => 0, fun _ => [], fun _ => [], fun _ => none, false⟩

/-- function update -/
def upd {α : Type} (f : Nat → α) (p : Nat) (a : α) : Nat → α := fun x => if x = p then a else f x

/-- mpy.py 126–129: process `p` has got the value `v`: return `True`, or go on, or return `False` at the end -/
def got (n p : Nat) (v : Bool) (s : Vote) : Vote :=
  let s := { s with hist := upd s.hist p (s.hist p ++ [s.sd p]) }
  if v then { s with res := upd s.res p (s.res p ++ [true]), call := upd s.call p (s.call p + 1), sd := upd s.sd p 0 }
  else if s.sd p + 1 < n then { s with sd := upd s.sd p (s.sd p + 1) }
  else { s with res := upd s.res p (s.res p ++ [false]), call := upd s.call p (s.call p + 1), sd := upd s.sd p 0 }

/-- mpy.py 122–129: one round of the loop of process `p`; `need t p` is the local answer of `p` in call `t` (123) -/
inductive Step (n : Nat) (need : Nat → Nat → Bool) : Vote → Vote → Prop
  /-- `p` is the root: its answer is broadcast -/
  | root {s : Vote} {p : Nat} (hp : p < n) (h : s.sd p = p) (hl : s.log (s.hist p).length = none) :
      Step n need s (got n p (need (s.call p) p) { s with log := upd s.log (s.hist p).length (some (p, need (s.call p) p)) })
  /-- another process is the root and has arrived -/
  | other {s : Vote} {p r : Nat} {v : Bool} (hp : p < n) (h : s.sd p ≠ p) (hl : s.log (s.hist p).length = some (r, v)) (hr : r = s.sd p) :
      Step n need s (got n p v s)
  /-- the root `p` finds that another process has been the root of this broadcast -/
  | clash {s : Vote} {p : Nat} {x : Nat × Bool} (hp : p < n) (h : s.sd p = p) (hl : s.log (s.hist p).length = some x) :
      Step n need s { s with bad := true }
  /-- `p` names a root that is not the root -/
  | wrong {s : Vote} {p r : Nat} {v : Bool} (hp : p < n) (h : s.sd p ≠ p) (hl : s.log (s.hist p).length = some (r, v)) (hr : r ≠ s.sd p) :
      Step n need s { s with bad := true }

/-- what can happen in any order of the processes -/
inductive Reach (n : Nat) (need : Nat → Nat → Bool) : Vote → Prop
  | start : Reach n need idle
  | step {s s' : Vote} (h : Reach n need s) (e : Step n need s s') : Reach n need s'

end Verif.Mpi.Vote
