import Verif.Base
/-!
# Model of the interaction container

Transcribes `core/InteractionContainer.{hpp,cpp}`, the parts of `core/Interaction.{hpp,cpp}` it
relies on, and the effect of `core/BodyContainer.cpp` on the per-body interaction maps.

Body ids (`Body::id_t`, core/Body.hpp:27) are `int`, modelled by `Int`.

Simplifications:
* `shared_ptr<Interaction>` is a handle, an index in `St.heap` (the heap of all interaction
  objects ever created); handles are never freed, so liveness of shared objects is not modelled.
* A body is represented only by its map `intrs` (core/Body.hpp:94, `MapId2IntrT intrs`).
* `linIntrs.size()==currSize` always holds in the code (both are changed together,
  InteractionContainer.cpp:31, 47–48, 87), so only the list is kept.
* mutex locking (`drawloopmutex`) is not modelled; debug `assert`s are not executed.
-/
namespace Verif.Intr
open Verif

/-- `std::map<Body::id_t, shared_ptr<Interaction>>` (core/Body.hpp:29) as association list. -/
abbrev IMap := List (Int × Nat)

namespace IMap
/-- `map::find` / `map::count`. -/
def get : IMap → Int → Option Nat
  | [], _ => none
  | (k, v) :: m, x => if k = x then some v else get m x
/-- `map::insert` of a key known to be absent. -/
def add (m : IMap) (k : Int) (v : Nat) : IMap := (k, v) :: m
/-- `map::erase`. -/
def del (m : IMap) (k : Int) : IMap := m.filter (fun p => p.1 ≠ k)
end IMap

/-- An `Interaction` object (core/Interaction.hpp:49–59; only the fields used here). -/
structure Intr where
  id1 : Int
  id2 : Int
  geom : Bool
  phys : Bool
  cellDist : Int × Int × Int
  linIx : Int
  deriving Repr, DecidableEq

namespace Intr
/-- core/Interaction.hpp:19 `isReal(){return (bool)geom && (bool)phys;}` -/
def isReal (i : Intr) : Bool := i.geom && i.phys
/-- core/Interaction.cpp:25–32 `reset` (ids, cellDist and linIx survive). -/
def reset (i : Intr) : Intr := { i with geom := false, phys := false }
/-- core/Interaction.cpp:35–41 `swapOrder`; throws when geom or phys exist. -/
def swapOrder (i : Intr) : Res Intr :=
  if i.geom || i.phys then .throws
  else .ok ⟨i.id2, i.id1, i.geom, i.phys,
    (-i.cellDist.1, -i.cellDist.2.1, -i.cellDist.2.2), i.linIx⟩
/-- smaller id of the pair, as obtained by `if (id1>id2) swap(id1,id2)` -/
def lo (i : Intr) : Int := if i.id1 > i.id2 then i.id2 else i.id1
/-- larger id of the pair -/
def hi (i : Intr) : Int := if i.id1 > i.id2 then i.id1 else i.id2
end Intr

/-- core/Interaction.cpp:35–41 through a handle: swapping a stored interaction. -/
def swapAt (heap : List Intr) (h : Nat) : Res (List Intr) :=
  match heap[h]? with
  | none => .ub
  | some i => match i.swapOrder with
    | .ok i' => .ok (heap.set h i')
    | .throws => .throws
    | .ub => .ub

/-- Container state: body slots (`none` is a null pointer left by an erased body), the
interaction heap, the linear list `linIntrs`, and erased body objects still held by the caller
(their `intrs` map survives, BodyContainer.cpp:69–73 does not clear it). -/
structure St where
  bodies : List (Option IMap)
  heap : List Intr
  lin : List Nat
  held : List IMap
  deriving Repr, DecidableEq

/-- Raw `(*bodies)[id]`: `none` when the index is outside the vector. -/
def slot (s : St) (a : Int) : Option (Option IMap) :=
  if 0 ≤ a then s.bodies[a.toNat]? else none

/-- write a body's `intrs` map back -/
def setSlot (s : St) (a : Int) (m : IMap) : St :=
  { s with bodies := s.bodies.set a.toNat (some m) }

/-- `(Body::id_t)bodies->size()` -/
def nb (s : St) : Int := s.bodies.length

/-- core/InteractionContainer.cpp:13–39 `insert(const shared_ptr<Interaction>&)`. -/
def insert (s : St) (h : Nat) : Res (St × Bool) :=
  match s.heap[h]? with
  | none => .ub                                     -- null pointer
  | some i =>
    match slot s i.lo, slot s i.hi with             -- lines 25, 26: (*bodies)[..]
    | some b1, some _ =>
      match b1 with
      | none => .ub                                 -- line 28: b1-> on a null body
      | some m1 =>
        if (m1.get i.hi).isSome then .ok (s, false) -- line 28
        else
          let s1 := setSlot s i.lo (m1.add i.hi h)
          match slot s1 i.hi with
          | some (some m2) =>
            if (m2.get i.lo).isSome then .ok (s1, false)   -- line 29
            else
              let s2 := setSlot s1 i.hi (m2.add i.lo h)
              .ok ({ s2 with
                      lin := s2.lin ++ [h],                            -- lines 31, 32
                      heap := s2.heap.set h { i with linIx := s2.lin.length } }, -- line 33
                   true)
          | _ => .ub                                -- line 29: b2-> on a null body
    | _, _ => .ub

/-- Removal from `linIntrs`, core/InteractionContainer.cpp:81–88; `ix` is the C++ `linIx ≥ 0`. -/
def linRemove (s : St) (ix : Nat) : Res (St × Bool) :=
  match s.lin.getLast? with
  | none => .throws                                 -- `--currSize` wraps, resize throws
  | some last =>
    if ix + 1 < s.lin.length then                   -- line 82
      .ok ({ s with
              lin := (s.lin.set ix last).dropLast,  -- lines 83, 87
              heap := match s.heap[last]? with
                | some j => s.heap.set last { j with linIx := ix }   -- line 84
                | none => s.heap }, true)
    else .ok ({ s with lin := s.lin.dropLast }, true)  -- line 87

/-- core/InteractionContainer.cpp:70–75: if body `b` (whose slot holds `b2`) is alive, drop its entry
for `a`. -/
def delOther (s : St) (a b : Int) (b2 : Option IMap) : St :=
  match b2 with
  | some m2 => setSlot s b (m2.del a)
  | none => s

/-- core/InteractionContainer.cpp:52–89 `erase(id1,id2,linPos)`. -/
def erase (s : St) (x y : Int) (linPos : Int) : Res (St × Bool) :=
  let a := if x > y then y else x
  let b := if x > y then x else y
  if b ≥ nb s then .ok (s, false)                   -- line 56
  else
    match slot s a, slot s b with
    | some b1, some _ =>
      let found : Option (IMap × Nat) :=
        match b1 with
        | none => none
        | some m1 => (m1.get b).map (fun h => (m1, h))
      match found with
      | none =>                                     -- lines 61, 64: linIx=linPos
        if linPos < 0 then .ok (s, false) else linRemove s linPos.toNat
      | some (m1, h) =>
        match s.heap[h]? with
        | none => .ub
        | some i =>
          let s1 := setSlot s a (m1.del b)          -- line 69
          match slot s1 b with
          | some b2 =>
            let s2 := delOther s1 a b b2            -- lines 70–75
            if i.linIx < 0 then .ok (s2, false) else linRemove s2 i.linIx.toNat
          | none => .ub
    | _, _ => .ub

/-- core/InteractionContainer.cpp:91–101 `find`; `none` is the empty pointer. -/
def find (s : St) (x y : Int) : Res (Option Nat) :=
  let a := if x > y then y else x
  let b := if x > y then x else y
  if b ≥ nb s then .ok none
  else
    match slot s a with
    | none => .ub
    | some none => .ok none
    | some (some m) => .ok (m.get b)

/-- core/InteractionContainer.hpp:75–86 `found` (python `O.interactions.has`). -/
def found (s : St) (x y : Int) : Res Bool :=
  if y ≥ nb s ∨ x = y then .ok false
  else
    let a := if x > y then y else x
    let b := if x > y then x else y
    match slot s a with
    | some (some m) => .ok (m.get b).isSome
    | _ => .ub                                       -- null or out-of-range body dereferenced

/-- `Interaction::reset` through a handle. -/
def resetAt (s : St) (h : Nat) : St :=
  match s.heap[h]? with
  | some i => { s with heap := s.heap.set h i.reset }
  | none => s

/-- core/InteractionContainer.cpp:109–112 `requestErase(id1,id2)`. -/
def requestErase (s : St) (x y : Int) : Res St :=
  match find s x y with
  | .ok (some h) => .ok (resetAt s h)
  | .ok none => .ok s
  | .throws => .throws
  | .ub => .ub

/-- core/InteractionContainer.cpp:41–50 `clear`. -/
def clear (s : St) : St :=
  { s with bodies := s.bodies.map (fun b => b.map (fun _ => [])), lin := [] }

/-- A new object `Interaction(id1,id2)`, core/Interaction.cpp:15.  `linIx` is left uninitialised
by this constructor, hence a parameter. -/
def alloc (s : St) (x y : Int) (linIx : Int) : St × Nat :=
  ({ s with heap := s.heap ++ [⟨x, y, false, false, (0, 0, 0), linIx⟩] }, s.heap.length)

/-- core/BodyContainer.cpp:18–28 `insert`: a new slot holding a body with map `m`
(a fresh body has `m = []`). -/
def appendBody (s : St) (m : IMap) : St := { s with bodies := s.bodies ++ [some m] }

/-- core/BodyContainer.cpp:30–39 `insertAtId` for an in-range empty slot (the other cases are in
`Verif/Bodies`). -/
def refillBody (s : St) (a : Int) (m : IMap) : St :=
  match slot s a with
  | some none => { s with bodies := s.bodies.set a.toNat (some m) }
  | _ => s

/-- core/BodyContainer.cpp:68–74, tail of `erase` for a body that is no clump: every interaction
in its map is reset (lines 69–71), the slot becomes null; the body object and its map survive in
the caller's hands. -/
def eraseBody (s : St) (a : Int) : St :=
  match slot s a with
  | some (some m) =>
    let s1 := m.foldl (fun t p => resetAt t p.2) s
    { s1 with bodies := s1.bodies.set a.toNat none, held := s1.held ++ [m] }
  | _ => s

/-! ### Bulk removal -/

/-- The test of core/InteractionContainer.hpp:120 and :134. -/
def toBeErased (p : Int → Int → Bool) (i : Intr) : Bool := !i.isReal && p i.id1 i.id2

/-- core/InteractionContainer.hpp:118–121, the single-threaded loop.  `fuel` bounds the number of
iterations; `none` means that it was not enough. -/
def condEraseSerialLoop (p : Int → Int → Bool) : Nat → Nat → St → Option (Res St)
  | fuel, linPos, s =>
    match s.lin[linPos]? with
    | none => some (.ok s)                           -- linPos<currSize is false
    | some h =>
      match fuel with
      | 0 => none
      | fuel + 1 =>
        match s.heap[h]? with
        | none => some .ub
        | some i =>
          if toBeErased p i then
            match erase s i.id1 i.id2 linPos with
            | .ok (s', _) => condEraseSerialLoop p fuel linPos s'
            | .throws => some .throws
            | .ub => some .ub
          else condEraseSerialLoop p fuel (linPos + 1) s

/-- core/InteractionContainer.hpp:117–122: result and returned count. -/
def condEraseSerial (p : Int → Int → Bool) (fuel : Nat) (s : St) : Option (Res (St × Nat)) :=
  match condEraseSerialLoop p fuel 0 s with
  | none => none
  | some (.ok s') => some (.ok (s', s.lin.length - s'.lin.length))
  | some .throws => some .throws
  | some .ub => some .ub

/-- What one thread pushes to its list for the positions `[start, start+n)`,
core/InteractionContainer.hpp:132–135: triples (id1, id2, linPos) in increasing position. -/
def collect (p : Int → Int → Bool) (s : St) (start : Nat) : Nat → List (Int × Int × Nat)
  | 0 => []
  | n + 1 =>
    (match s.lin[start]? with
      | some h => match s.heap[h]? with
        | some i => if toBeErased p i then [(i.id1, i.id2, start)] else []
        | none => []
      | none => []) ++ collect p s (start + 1) n

/-- Static schedule: thread `k` gets the `k`-th contiguous block; `sizes` are the block lengths
(core/InteractionContainer.hpp:131 `schedule(static)`). -/
def collectAll (p : Int → Int → Bool) (s : St) (start : Nat) : List Nat → List (List (Int × Int × Nat))
  | [] => []
  | n :: ns => collect p s start n :: collectAll p s (start + n) ns

/-- erase the listed triples one after the other -/
def eraseSeq (s : St) : List (Int × Int × Nat) → Res St
  | [] => .ok s
  | (a, b, k) :: ts =>
    match erase s a b k with
    | .ok (s', _) => eraseSeq s' ts
    | .throws => .throws
    | .ub => .ub

/-- core/InteractionContainer.hpp:125–139: threads from last to first, in each thread's list from
the last triple to the first. -/
def condEraseParallel (p : Int → Int → Bool) (sizes : List Nat) (s : St) : Res (St × Nat) :=
  match eraseSeq s ((collectAll p s 0 sizes).reverse.flatMap List.reverse) with
  | .ok s' => .ok (s', s.lin.length - s'.lin.length)
  | .throws => .throws
  | .ub => .ub

/-- core/InteractionContainer.cpp:122–124 `eraseNonReal`.  `BOOST_FOREACH` caches the end iterator
(the first argument counts the positions left until the cached end).  `erase` shrinks the vector, which invalidates the iterators at
and behind the new end: dereferencing such a position is undefined behaviour. -/
def eraseNonRealLoop : Nat → Nat → St → Res St
  | 0, _, s => .ok s
  | n + 1, pos, s =>
    match s.lin[pos]? with
    | none => .ub                                    -- position behind the shrunken end
    | some h =>
      match s.heap[h]? with
      | none => .ub
      | some i =>
        if i.isReal then eraseNonRealLoop n (pos + 1) s
        else match erase s i.id1 i.id2 i.linIx with
          | .ok (s', _) => eraseNonRealLoop n (pos + 1) s'
          | .throws => .throws
          | .ub => .ub

/-- core/InteractionContainer.cpp:122–124 -/
def eraseNonReal (s : St) : Res St := eraseNonRealLoop s.lin.length 0 s

/-! ### Saving and loading -/

/-- core/Interaction.hpp:32 `operator<` -/
def Intr.lt (a b : Intr) : Bool := a.id1 < b.id1 || (a.id1 == b.id1 && a.id2 < b.id2)

/-- Insertion into a list ordered by `Intr.lt`; together with `sortIntrs` this stands for
`std::sort` (core/InteractionContainer.cpp:138), any correct sort gives a permutation. -/
def orderedInsert (i : Intr) : List Intr → List Intr
  | [] => [i]
  | j :: js => if i.lt j then i :: j :: js else j :: orderedInsert i js

/-- see `orderedInsert` -/
def sortIntrs : List Intr → List Intr
  | [] => []
  | i :: is => orderedInsert i (sortIntrs is)

/-- core/InteractionContainer.cpp:133–139 `preSave`: the value of the attribute `interaction`
written to the archive, given its previous value `old`. -/
def preSave (sorted : Bool) (old : List Intr) (s : St) : List Intr :=
  let l := old ++ (s.lin.filterMap (fun h => s.heap[h]?)).filter (fun i => i.geom || i.phys)
  if sorted then sortIntrs l else l

/-- One save: core/InteractionContainer.cpp:133–140, `preSave`, the archive is written, `postSave`
clears the attribute.  Returns what is written and the attribute afterwards. -/
def save (sorted : Bool) (attr : List Intr) (s : St) : List Intr × List Intr :=
  (preSave sorted attr s, [])

/-- core/InteractionContainer.cpp:147–155, the loop over the loaded list: stops with `return` at the
first interaction of which a body is missing.  Returns the new state and the attribute
`interaction` afterwards (cleared only when the loop ran to its end).  A loaded object is a new
object; its `linIx` is not saved (Attr::noSave, default −1, core/Interaction.hpp:57). -/
def postLoadLoop (all : List Intr) : List Intr → St → Res (St × List Intr)
  | [], s => .ok (s, [])
  | i :: is, s =>
    match slot s i.id1, slot s i.id2 with
    | some b1, some b2 =>
      if b1.isNone || b2.isNone then .ok (s, all)    -- line 149–150
      else
        let (s1, h) := ({ s with heap := s.heap ++ [{ i with linIx := -1 }] }, s.heap.length)
        match insert s1 h with
        | .ok (s2, _) => postLoadLoop all is s2
        | .throws => .throws
        | .ub => .ub
    | _, _ => .ub

/-- What the archive holds for the bodies: the vector with its null entries; `intrs` is not saved
(core/Body.hpp:94 `Attr::noSave`). -/
def savedBodies (s : St) : List (Option IMap) := s.bodies.map (fun b => b.map (fun _ => []))

/-- core/InteractionContainer.cpp:144–156 `postLoad__calledFromScene` for the loaded bodies. -/
def postLoad (bodies : List (Option IMap)) (saved : List Intr) : Res (St × List Intr) :=
  postLoadLoop saved saved (clear ⟨bodies, [], [], []⟩)

end Verif.Intr
