import Verif.Base

/-!
# Recursive bisection of the bodies over the worker processes

Transcription of `/repo/py/tree_decomp.py` (`decomp_bodies.scatter_data` followed by
`decomp_bodies.gather_data`) as called by `/repo/py/mpy_bisection.py` lines 438–441 and
`/repo/py/mpf_bisection.py` lines 511–514.

Each worker process (MPI rank `1 … n`) runs the same program.  A state holds, per worker,
its program counter and the list it currently holds, and per ordered pair of workers the
queue of messages which were sent and not received yet (MPI keeps the order of messages
between two processes; every receive in the code names its source).  A step is a step of
one worker; workers interleave arbitrarily.

Simplifications: the pickled contents of a message is the list itself; items are an
arbitrary type with an arbitrary comparison per axis (the code compares coordinates).
-/

namespace Verif.Tree

variable {α : Type}

/-- `if_scatter_recv`, /repo/py/tree_decomp.py lines 61–69.  `none` is `False, -1`. -/
def ifScatterRecv (level inrank : Nat) : Option Nat :=
  let myrank := inrank - 1
  if 2 ^ level ≤ myrank ∧ myrank < 2 ^ (level + 1) then
    some (myrank - 2 ^ level + 1)
  else none

/-- `if_scatter_send`, /repo/py/tree_decomp.py lines 73–82. -/
def ifScatterSend (level inrank nthreads : Nat) : Option Nat :=
  let myrank := inrank - 1
  if myrank < 2 ^ level then
    let dest := myrank + 2 ^ level
    if nthreads ≤ dest then none else some (dest + 1)
  else none

/-- `if_gather_send`, /repo/py/tree_decomp.py lines 106–118. -/
def ifGatherSend (level inrank : Nat) : Option Nat :=
  let myrank := inrank - 1
  if level = 0 ∧ 1 < myrank then none
  else if 2 ^ level ≤ myrank ∧ myrank < 2 ^ (level + 1) then
    some (myrank - 2 ^ level + 1)
  else none

/-- `if_gather_recv`, /repo/py/tree_decomp.py lines 122–135. -/
def ifGatherRecv (level inrank nthreads : Nat) : Option Nat :=
  let myrank := inrank - 1
  if level = 0 ∧ 0 < myrank then none
  else if myrank < 2 ^ level then
    let source := myrank + 2 ^ level
    if nthreads ≤ source then none else some (source + 1)
  else none

/-- What the run depends on: the number of workers (`numThreads`, line 26), the number of
levels (`numLevels`, line 27), the number of dimensions (`ndim`, line 37), the comparison of
two items along an axis (the sort key, line 165) and what a worker turns an item into
before gathering (`part_list = [(x[1], rank) …]`, /repo/py/mpy_bisection.py line 440). -/
structure Cfg (α : Type) where
  n : Nat
  levels : Nat
  ndim : Nat
  le : Nat → α → α → Bool
  mark : Nat → α → α

/-- `sort_data`, /repo/py/tree_decomp.py lines 164–165: Python's stable sort. -/
def sortData (c : Cfg α) (xs : List α) (axis : Nat) : List α :=
  xs.mergeSort (c.le axis)

/-- `process_data`, /repo/py/tree_decomp.py lines 138–146.  `level % 0` raises
ZeroDivisionError, `sorted_data[split_pt]` raises IndexError on an empty list. -/
def processData (c : Cfg α) (xs : List α) (level : Nat) : Res (List α × List α) :=
  if c.ndim = 0 then .throws
  else
    let sorted := sortData c xs (level % c.ndim)
    let split := sorted.length / 2
    match sorted[split]? with
    | none => .throws
    | some x => .ok (sorted.take split, sorted.drop (split + 1) ++ [x])

/-- One program point of a worker. -/
inductive Instr where
  /-- nothing to send or receive at this level -/
  | skip
  /-- line 53: the received list replaces the held one -/
  | recvReplace (src : Nat)
  /-- lines 56–57: split the held list, keep one part, send the other -/
  | splitSend (level dst : Nat)
  /-- /repo/py/mpy_bisection.py line 440 -/
  | mark
  /-- line 97: send the held list -/
  | sendAll (dst : Nat)
  /-- lines 100–101: append the received list -/
  | recvAppend (src : Nat)
deriving DecidableEq

/-- The program of worker `r`: the loop of `scatter_data` (/repo/py/tree_decomp.py lines
49–57: at each level receive, then send), the marking of the items (mpy_bisection.py line
440), and the loop of `gather_data` (lines 93–102: from the last level down, send, then
receive). -/
def instr (n L r p : Nat) : Instr :=
  if p < 2 * L then
    if p % 2 = 0 then
      match ifScatterRecv (p / 2) r with
      | some s => .recvReplace s
      | none => .skip
    else
      match ifScatterSend (p / 2) r n with
      | some d => .splitSend (p / 2) d
      | none => .skip
  else if p = 2 * L then .mark
  else
    let q := p - (2 * L + 1)
    let level := L - 1 - q / 2
    if q % 2 = 0 then
      match ifGatherSend level r with
      | some d => .sendAll d
      | none => .skip
    else
      match ifGatherRecv level r n with
      | some s => .recvAppend s
      | none => .skip

/-- Number of program points, from the two loops (lines 49 and 93–94). -/
def progLen (L : Nat) : Nat := 4 * L + 1

/-- The state of the run: program counter and held list per worker, messages in flight per
ordered pair (source, destination). -/
structure St (α : Type) where
  pc : Nat → Nat
  data : Nat → List α
  chan : Nat → Nat → List (List α)

/-- The start: worker 1 holds the list received from the master, the others an empty list
(/repo/py/mpy_bisection.py lines 427–437). -/
def init (items : List α) : St α where
  pc := fun _ => 0
  data := fun r => if r = 1 then items else []
  chan := fun _ _ => []

/-- Function update. -/
def set (f : Nat → β) (i : Nat) (v : β) : Nat → β := fun j => if j = i then v else f j

/-- Update of one queue. -/
def set2 (f : Nat → Nat → β) (i j : Nat) (v : β) : Nat → Nat → β :=
  fun a b => if a = i ∧ b = j then v else f a b

/-- One step of worker `r`.  `none`: the worker is at the end of its program or waits in
`comm.recv` for a message which was not sent.  `some .throws`: a Python exception.
/repo/py/tree_decomp.py lines 43–58, 86–103. -/
def step (c : Cfg α) (s : St α) (r : Nat) : Option (Res (St α)) :=
  let p := s.pc r
  let adv : St α := { s with pc := set s.pc r (p + 1) }
  if progLen c.levels ≤ p then none
  else
    match instr c.n c.levels r p with
    | .skip => some (.ok adv)
    | .recvReplace src =>
      match s.chan src r with
      | [] => none
      | m :: ms => some (.ok { adv with
          data := set s.data r m, chan := set2 s.chan src r ms })
    | .splitSend level dst =>
      match processData c (s.data r) level with
      | .ok (keep, snd) => some (.ok { adv with
          data := set s.data r keep, chan := set2 s.chan r dst (s.chan r dst ++ [snd]) })
      | .throws => some .throws
      | .ub => some .ub
    | .mark => some (.ok { adv with data := set s.data r ((s.data r).map (c.mark r)) })
    | .sendAll dst => some (.ok { adv with
          chan := set2 s.chan r dst (s.chan r dst ++ [s.data r]) })
    | .recvAppend src =>
      match s.chan src r with
      | [] => none
      | m :: ms => some (.ok { adv with
          data := set s.data r (s.data r ++ m), chan := set2 s.chan src r ms })

/-- The states which some interleaving of the workers `1 … n` reaches. -/
inductive Reach (c : Cfg α) (items : List α) : St α → Prop where
  | init : Reach c items (init items)
  | step {s s' : St α} {r : Nat} : Reach c items s → 1 ≤ r → r ≤ c.n →
      step c s r = some (.ok s') → Reach c items s'

/-- The worker is about to wait for a message from `src`: the other side of a send which
MPI does not buffer (`comm.send`, lines 57 and 97, may wait until the receiver is there). -/
def waitsFor (c : Cfg α) (s : St α) (r src : Nat) : Prop :=
  s.pc r < progLen c.levels ∧ s.chan src r = [] ∧
    (instr c.n c.levels r (s.pc r) = .recvReplace src ∨
     instr c.n c.levels r (s.pc r) = .recvAppend src)

/-- The destination of the send a worker is about to do, if any (lines 57, 97). -/
def sendsTo (c : Cfg α) (s : St α) (r : Nat) : Option Nat :=
  if s.pc r < progLen c.levels then
    match instr c.n c.levels r (s.pc r) with
    | .splitSend _ d => some d
    | .sendAll d => some d
    | _ => none
  else none

/-- The assignment by the master: `for b_id in gather_list: O.bodies[b_id[0]].subdomain =
b_id[1]`, /repo/py/mpy_bisection.py lines 447–448, on a map from ids to subdomains. -/
def assign (sub : Nat → Nat) (l : List (Nat × Nat)) : Nat → Nat :=
  l.foldl (fun s x => set s x.1 x.2) sub

end Verif.Tree
