import Mathlib.Algebra.Group.Defs
import Verif.Base
/-!
# Model of the per-thread accumulators and the energy tracker

lib/base/openmp-accu.hpp (OpenMP build, lines 13–155) and core/EnergyTracker.hpp.

Simplifications: values are of any type with addition (rounding of floating point numbers is not
modelled); memory is counted in cache lines and elements; `posix_memalign` does not fail; freshly
allocated memory holds no value (`none`), reading it is undefined behaviour.  Concurrent operations are
interleaved at the granularity stated at each definition.
-/
namespace Verif.Accu
open Verif

variable {T : Type}

/-! ## OpenMPAccumulator -/

/-- lib/base/openmp-accu.hpp:85 `eSize(CLS*(sizeof(T)/CLS+(sizeof(T)%CLS==0 ? 0 :1)))`. -/
def eSize (cls size : Nat) : Nat := cls * (size / cls + if size % cls = 0 then 0 else 1)

/-- lib/base/openmp-accu.hpp:79–82: one value per thread (`data+i*eSize`). -/
structure Acc (T : Type) where
  vals : List T

/-- lib/base/openmp-accu.hpp:97 `reset`. -/
def Acc.reset [Zero T] (a : Acc T) : Acc T := ⟨a.vals.map fun _ => 0⟩
/-- lib/base/openmp-accu.hpp:85–89: the constructor with `n` threads. -/
def Acc.new [Zero T] (n : Nat) : Acc T := ⟨List.replicate n 0⟩
/-- lib/base/openmp-accu.hpp:92 `operator+=` on thread `th`; a thread number beyond those known when
the accumulator was built is undefined behaviour. -/
def Acc.add [Add T] (a : Acc T) (th : Nat) (v : T) : Res (Acc T) :=
  match a.vals[th]? with
  | some x => .ok ⟨a.vals.set th (x + v)⟩
  | none => .ub
/-- lib/base/openmp-accu.hpp:93 `operator-=`. -/
def Acc.sub [Sub T] (a : Acc T) (th : Nat) (v : T) : Res (Acc T) :=
  match a.vals[th]? with
  | some x => .ok ⟨a.vals.set th (x - v)⟩
  | none => .ub
/-- lib/base/openmp-accu.hpp:100 `get`. -/
def Acc.get [Zero T] [Add T] (a : Acc T) : T := a.vals.foldl (· + ·) 0
/-- lib/base/openmp-accu.hpp:101 `set`. -/
def Acc.set [Zero T] (a : Acc T) (v : T) : Acc T := ⟨a.reset.vals.set 0 v⟩

/-! ## OpenMPArrayAccumulator -/

/-- the memory of one thread: allocated cache lines and contents -/
structure Chunk (T : Type) where
  lines : Nat
  data : Nat → Option T

/-- lib/base/openmp-accu.hpp:16–20: the attributes; `chunks` has one entry per thread, `none` is the null
pointer. -/
structure Arr (T : Type) where
  perCL : Nat
  chunks : List (Option (Chunk T))
  sz : Nat
  nCL : Nat

/-- lib/base/openmp-accu.hpp:23: the constructor with `n` threads. -/
def Arr.new (perCL n : Nat) : Arr T := ⟨perCL, List.replicate n none, 0, 0⟩

/-- lib/base/openmp-accu.hpp:21 `nCL_for_N`. -/
def nCLforN (perCL n : Nat) : Nat := n / perCL + if n % perCL = 0 then 0 else 1

/-- lib/base/openmp-accu.hpp:31–37: new memory for one thread; `nCL` lines are copied from the old
memory, which is undefined behaviour if it has fewer. -/
def growOne (perCL nCL nCLnew : Nat) (old : Option (Chunk T)) : Res (Chunk T) :=
  match old with
  | none => .ok ⟨nCLnew, fun _ => none⟩
  | some c => if nCL ≤ c.lines then .ok ⟨nCLnew, fun i => if i < nCL * perCL then c.data i else none⟩ else .ub

/-- lib/base/openmp-accu.hpp:30–39: the loop over threads; note that line 38, `nCL=nCL_new`, is inside. -/
def growLoop (perCL nCLnew : Nat) : Nat → List (Option (Chunk T)) → Res (List (Option (Chunk T)))
  | _, [] => .ok []
  | nCL, c :: cs => match growOne perCL nCL nCLnew c with
    | .ok c' => match growLoop perCL nCLnew nCLnew cs with
      | .ok cs' => .ok (some c' :: cs')
      | .throws => .throws
      | .ub => .ub
    | .throws => .throws
    | .ub => .ub

/-- writing one element of one thread's memory -/
def Chunk.put (perCL : Nat) (c : Option (Chunk T)) (i : Nat) (v : T) : Res (Option (Chunk T)) :=
  match c with
  | some c => if i < c.lines * perCL then .ok (some { c with data := fun j => if j = i then some v else c.data j }) else .ub
  | none => .ub

/-- lib/base/openmp-accu.hpp:44: elements `s, …, n-1` of one thread's memory are set to zero. -/
def zeroFrom [Zero T] (perCL : Nat) (c : Option (Chunk T)) (s n : Nat) : Res (Option (Chunk T)) :=
  if s < n then match c with
    | some c => if n ≤ c.lines * perCL then
        .ok (some { c with data := fun j => if s ≤ j ∧ j < n then some 0 else c.data j }) else .ub
    | none => .ub
  else .ok c

/-- apply an operation to the memory of every thread in turn -/
def eachChunk (f : Option (Chunk T) → Res (Option (Chunk T))) : List (Option (Chunk T)) → Res (List (Option (Chunk T)))
  | [] => .ok []
  | c :: cs => match f c with
    | .ok c' => match eachChunk f cs with
      | .ok cs' => .ok (c' :: cs')
      | .throws => .throws
      | .ub => .ub
    | .throws => .throws
    | .ub => .ub

/-- lib/base/openmp-accu.hpp:26–46 `resize`; `n/perCL` with `perCL=0` is undefined behaviour. -/
def Arr.resize [Zero T] (a : Arr T) (n : Nat) : Res (Arr T) :=
  if n = a.sz then .ok a
  else if a.perCL = 0 then .ub
  else
    let nCLnew := nCLforN a.perCL n
    match (if nCLnew > a.nCL then growLoop a.perCL nCLnew a.nCL a.chunks else .ok a.chunks) with
    | .ok cs => match eachChunk (fun c => zeroFrom a.perCL c a.sz n) cs with
      | .ok cs' => .ok { a with chunks := cs', sz := n, nCL := if nCLnew > a.nCL then nCLnew else a.nCL }
      | .throws => .throws
      | .ub => .ub
    | .throws => .throws
    | .ub => .ub

/-- reading one element of one thread's memory -/
def Chunk.at (perCL : Nat) (c : Option (Chunk T)) (i : Nat) : Res T :=
  match c with
  | some c => if i < c.lines * perCL then (match c.data i with | some v => .ok v | none => .ub) else .ub
  | none => .ub

/-- lib/base/openmp-accu.hpp:53: the loop of `get`, starting from `acc`. -/
def sumChunks [Add T] (perCL i : Nat) : T → List (Option (Chunk T)) → Res T
  | acc, [] => .ok acc
  | acc, c :: cs => match Chunk.at perCL c i with
    | .ok v => sumChunks perCL i (acc + v) cs
    | .throws => .throws
    | .ub => .ub

/-- lib/base/openmp-accu.hpp:53 `get`; the index is not compared with `sz`. -/
def Arr.get [Zero T] [Add T] (a : Arr T) (i : Nat) : Res T := sumChunks a.perCL i 0 a.chunks

/-- lib/base/openmp-accu.hpp:55: the loop of `set`; `v` goes to the first thread, zero to the others. -/
def setChunks [Zero T] (perCL i : Nat) (v : T) : List (Option (Chunk T)) → Res (List (Option (Chunk T)))
  | [] => .ok []
  | c :: cs => match Chunk.put perCL c i v with
    | .ok c' => match eachChunk (fun c => Chunk.put perCL c i 0) cs with
      | .ok cs' => .ok (c' :: cs')
      | .throws => .throws
      | .ub => .ub
    | .throws => .throws
    | .ub => .ub

/-- lib/base/openmp-accu.hpp:55 `set`. -/
def Arr.set [Zero T] (a : Arr T) (i : Nat) (v : T) : Res (Arr T) :=
  match setChunks a.perCL i v a.chunks with
  | .ok cs => .ok { a with chunks := cs }
  | .throws => .throws
  | .ub => .ub

/-- lib/base/openmp-accu.hpp:58 `reset`. -/
def Arr.reset [Zero T] (a : Arr T) (i : Nat) : Res (Arr T) := a.set i 0

/-- lib/base/openmp-accu.hpp:57 `add` on thread `th`. -/
def Arr.add [Add T] (a : Arr T) (th i : Nat) (v : T) : Res (Arr T) :=
  match a.chunks[th]? with
  | none => .ub
  | some c => match Chunk.at a.perCL c i with
    | .ok x => match Chunk.put a.perCL c i (x + v) with
      | .ok c' => .ok { a with chunks := a.chunks.set th c' }
      | .throws => .throws
      | .ub => .ub
    | .throws => .throws
    | .ub => .ub

/-- lib/base/openmp-accu.hpp:48 `clear`. -/
def Arr.clear [Zero T] (a : Arr T) : Res (Arr T) := a.resize 0

/-! ## OpenMPVector -/

/-- lib/base/openmp-accu.hpp:115 `push_back` on thread `th`. -/
def vecPush (vals : List (List T)) (th : Nat) (v : T) : Res (List (List T)) :=
  match vals[th]? with
  | some l => .ok (vals.set th (l ++ [v]))
  | none => .ub

/-- lib/base/openmp-accu.hpp:116–122 `size()`. -/
def vecSize (vals : List (List T)) : Nat := vals.foldl (fun n l => n + l.length) 0

/-- lib/base/openmp-accu.hpp:140–145: the walk over the threads; running past the last one would be
undefined behaviour. -/
def vecWalk : List (List T) → Nat → Res T
  | [], _ => .ub
  | l :: ls, ix => if ix ≥ l.length then vecWalk ls (ix - l.length) else match l[ix]? with
    | some v => .ok v
    | none => .ub

/-- lib/base/openmp-accu.hpp:136–147 `operator[]`; an index out of range ends the program (`throws`). -/
def vecAt (vals : List (List T)) (ix : Nat) : Res T := if ix ≥ vecSize vals then .throws else vecWalk vals ix

/-- lib/base/openmp-accu.hpp:149–153 `clear`. -/
def vecClear (vals : List (List T)) : List (List T) := vals.map fun _ => []

/-! ## EnergyTracker -/

/-- core/EnergyTracker.hpp:55–57: the attributes. -/
structure Trk (T : Type) where
  energies : Arr T
  names : List (String × Nat)
  resetStep : List Bool

/-- core/EnergyTracker.hpp:12 `names.count(name)`/`names[name]`. -/
def findName (names : List (String × Nat)) (name : String) : Option Nat :=
  match names with
  | [] => none
  | e :: es => if e.1 = name then some e.2 else findName es name

/-- core/EnergyTracker.hpp:17 `names[name]=id` of a `std::map`: replaces or inserts. -/
def putName (names : List (String × Nat)) (name : String) (id : Nat) : List (String × Nat) :=
  (name, id) :: names.filter (fun e => e.1 != name)

/-- core/EnergyTracker.hpp:15–17: the critical section, registering a new name. -/
def register [Zero T] (t : Trk T) (name : String) (reset : Bool) : Res (Trk T × Nat) :=
  match t.energies.resize (t.energies.sz + 1) with
  | .ok e => .ok ({ energies := e, names := putName t.names name (e.sz - 1),
                    resetStep := (t.resetStep ++ List.replicate (e.sz - t.resetStep.length) false).take e.sz |>.set (e.sz - 1) reset },
                  e.sz - 1)
  | .throws => .throws
  | .ub => .ub

/-- core/EnergyTracker.hpp:10–19 `findId` with `newIfNotFound`, as one atomic operation; called with
`id<0` only. -/
def findId [Zero T] (t : Trk T) (name : String) (reset : Bool) : Res (Trk T × Nat) :=
  match findName t.names name with
  | some i => .ok (t, i)
  | none => register t name reset

/-- core/EnergyTracker.hpp:27 and 22: the identifier to use: the caller's cached one if there is one. -/
def useId [Zero T] (t : Trk T) (cached : Option Nat) (name : String) (reset : Bool) : Res (Trk T × Nat) :=
  match cached with
  | some i => .ok (t, i)
  | none => findId t name reset

/-- core/EnergyTracker.hpp:26–29 `add` by thread `th`; the new value of the caller's cached identifier is returned. -/
def Trk.add [Zero T] [Add T] (t : Trk T) (th : Nat) (v : T) (name : String) (cached : Option Nat) (reset : Bool) :
    Res (Trk T × Option Nat) :=
  match useId t cached name reset with
  | .ok (t1, i) => match t1.energies.add th i v with
    | .ok e => .ok ({ t1 with energies := e }, some i)
    | .throws => .throws
    | .ub => .ub
  | .throws => .throws
  | .ub => .ub

/-- core/EnergyTracker.hpp:21–24 `set`. -/
def Trk.set [Zero T] (t : Trk T) (v : T) (name : String) (cached : Option Nat) : Res (Trk T × Option Nat) :=
  match useId t cached name false with
  | .ok (t1, i) => match t1.energies.set i v with
    | .ok e => .ok ({ t1 with energies := e }, some i)
    | .throws => .throws
    | .ub => .ub
  | .throws => .throws
  | .ub => .ub

/-- core/EnergyTracker.hpp:30–34 `getItem_py`, `O.energy[name]`. -/
def Trk.getItem [Zero T] [Add T] (t : Trk T) (name : String) : Res T :=
  match findName t.names name with
  | some i => t.energies.get i
  | none => .throws

/-- core/EnergyTracker.hpp:38 `clear`; the identifiers cached by the callers are not touched. -/
def Trk.clear [Zero T] (t : Trk T) : Res (Trk T) :=
  match t.energies.clear with
  | .ok e => .ok { energies := e, names := [], resetStep := [] }
  | .throws => .throws
  | .ub => .ub

/-- core/EnergyTracker.hpp:39: the loop of `resetResettables` over the identifiers below `k`. -/
def resetLoop [Zero T] (flags : List Bool) : Nat → Arr T → Res (Arr T)
  | 0, a => .ok a
  | k + 1, a => match resetLoop flags k a with
    | .ok a' => if flags.getD k false then a'.reset k else .ok a'
    | .throws => .throws
    | .ub => .ub

/-- core/EnergyTracker.hpp:39 `resetResettables`, called once per step by pkg/common/ForceResetter.hpp:11. -/
def Trk.resetResettables [Zero T] (t : Trk T) : Res (Trk T) :=
  match resetLoop t.resetStep t.energies.sz t.energies with
  | .ok e => .ok { t with energies := e }
  | .throws => .throws
  | .ub => .ub

/-- core/EnergyTracker.hpp:41: the sum over the identifiers from `i` on (`k` of them). -/
def totalFrom [Zero T] [Add T] (a : Arr T) : Nat → Nat → T → Res T
  | _, 0, acc => .ok acc
  | i, k + 1, acc => match a.get i with
    | .ok v => totalFrom a (i + 1) k (acc + v)
    | .throws => .throws
    | .ub => .ub

/-- core/EnergyTracker.hpp:41 `total`. -/
def Trk.total [Zero T] [Add T] (t : Trk T) : Res T := totalFrom t.energies 0 t.energies.sz 0

/-! ### Concurrent additions

Several threads call `add` with the same name and the same cached identifier variable `id`, as the functors
of the interaction loop do (e.g. pkg/dem/ElasticContactLaw.cpp `plastDissipIx`).  The test in line 12 is
outside the critical section of lines 15–17, so other threads may run in between. -/

/-- where a thread is in `add` -/
inductive Pc | start | missing | ready | done
  deriving DecidableEq, Repr

/-- the tracker, the shared identifier variable, and the position of each thread -/
structure Par (T : Type) where
  trk : Trk T
  id : Option Nat
  pc : List Pc

/-- core/EnergyTracker.hpp:10–29: one step of thread `th` adding `v` under `name`. -/
def Par.step [Zero T] [Add T] (s : Par T) (name : String) (reset : Bool) (th : Nat) (v : T) : Res (Par T) :=
  match s.pc[th]? with
  | some .start => match s.id with
    | some _ => .ok { s with pc := s.pc.set th .ready }                                  -- line 27
    | none => match findName s.trk.names name with
      | some i => .ok { s with id := some i, pc := s.pc.set th .ready }                  -- line 12
      | none => .ok { s with pc := s.pc.set th .missing }                                -- line 13
  | some .missing => match register s.trk name reset with                                -- line 17
    | .ok (t, i) => .ok { s with trk := t, id := some i, pc := s.pc.set th .ready }
    | .throws => .throws
    | .ub => .ub
  | some .ready => match s.id with
    | some i => match s.trk.energies.add th i v with                                     -- line 28
      | .ok e => .ok { s with trk := { s.trk with energies := e }, pc := s.pc.set th .done }
      | .throws => .throws
      | .ub => .ub
    | none => .ub
  | _ => .ok s

/-- an interleaving: a sequence of thread numbers; thread `th` adds `v th` -/
def Par.run [Zero T] [Add T] (name : String) (reset : Bool) (v : Nat → T) : Par T → List Nat → Res (Par T)
  | s, [] => .ok s
  | s, th :: ths => match s.step name reset th (v th) with
    | .ok s' => Par.run name reset v s' ths
    | .throws => .throws
    | .ub => .ub

end Verif.Accu
