import Verif.Base

/-!
# Looping over `O.bodies`

Transcription of `BodyContainer::smart_iterator` (/repo/core/BodyContainer.hpp lines 37–68) and of the
Python iterator built on it (/repo/py/wrapper/yadeWrapper.cpp lines 52–63).

An iterator is an index into the vector of bodies; a slot is `none` where the body was erased.  The
increment reads the slot it has arrived at *before* comparing with the end (line 42), hence also the
place past the end.  `past` says what that read gives: `.ub` in the C++ sense, or some value the
memory happens to hold (`.ok true`: a non-null pointer).

The container may change between two calls of `next`: bodies may be erased (their slot becomes `none`,
the vector keeps its size).  Appending may move the vector and invalidates the iterator; it is not part
of the histories.
-/

namespace Verif.Bodies.Iter
open Verif

variable {β : Type}

/-- The `while` of `operator++`, /repo/core/BodyContainer.hpp line 42, from index `j`. -/
def skipNull (slots : List (Option β)) (past : Res Bool) (j : Nat) : Res Nat :=
  if h : j < slots.length then
    match slots[j] with
    | none => skipNull slots past (j + 1)
    | some _ => .ok j
  else
    match past with
    | .ok _ => .ok j          -- `end!=(*this)` is false
    | .throws => .throws
    | .ub => .ub
termination_by slots.length - j

/-- `operator++`, /repo/core/BodyContainer.hpp lines 40–43. -/
def incr (slots : List (Option β)) (past : Res Bool) (i : Nat) : Res Nat :=
  skipNull slots past (i + 1)

/-- `begin()`, /repo/core/BodyContainer.hpp lines 60–63. -/
def begin (slots : List (Option β)) (past : Res Bool) : Res Nat :=
  match slots with
  | [] => .ok 0
  | some _ :: _ => .ok 0
  | none :: _ => incr slots past 0

/-- What `next` gives: the next body and the new position, or StopIteration. -/
inductive Next (β : Type) where
  | item (at_ : Nat) (b : β) (i : Nat)
  | stop
deriving DecidableEq

/-- `pyNext`, /repo/py/wrapper/yadeWrapper.cpp lines 57–61; `n` is the position of the end kept by the
iterator.  Each round of the loop advances, `fuel` bounds the rounds (`n + 1` is always enough). -/
def pyNext (slots : List (Option β)) (past : Res Bool) (n : Nat) : Nat → Nat → Res (Next β)
  | 0, _ => .ok .stop
  | fuel + 1, i =>
    if i = n then .ok .stop
    else
      match incr slots past i with
      | .ok i' =>
        match slots[i]? with
        | none => .ub
        | some (some b) => .ok (.item i b i')
        | some none => pyNext slots past n fuel i'
      | .throws => .throws
      | .ub => .ub

/-- Result of looping: the bodies given with their positions, and whether StopIteration was
reached. -/
structure Out (β : Type) where
  items : List (Nat × β)
  stopped : Bool
deriving DecidableEq

/-- The Python loop `for b in O.bodies`: call `next` once per version of the container (the versions
are what the loop's body makes of the container). -/
def loop (past : Res Bool) (n : Nat) : List (List (Option β)) → Nat → Res (Out β)
  | [], _ => .ok ⟨[], false⟩
  | v :: vs, i =>
    match pyNext v past n (n + 1) i with
    | .ok .stop => .ok ⟨[], true⟩
    | .ok (.item j b i') =>
      match loop past n vs i' with
      | .ok o => .ok ⟨(j, b) :: o.items, o.stopped⟩
      | .throws => .throws
      | .ub => .ub
    | .throws => .throws
    | .ub => .ub

/-- The whole loop on the versions `v :: vs` (lines 55 and 57–61). -/
def forBodies (past : Res Bool) (v : List (Option β)) (vs : List (List (Option β))) : Res (Out β) :=
  match begin v past with
  | .ok i => loop past v.length (v :: vs) i
  | .throws => .throws
  | .ub => .ub

end Verif.Bodies.Iter
