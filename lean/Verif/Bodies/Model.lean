import Verif.Base
/-!
# Model of the body container and of clump membership

Transcribes `core/BodyContainer.{hpp,cpp}`, `Clump::add` / `Clump::del` (core/Clump.cpp) and the clump
operations of `py/wrapper/yadeWrapper.cpp`.

Simplifications:
* a `shared_ptr<Body>` is a reference (`Nat`) into a total heap of body objects; objects are never
  freed (the caller may hold them);
* of a body only `id`, `clumpId` and, if its shape is a `Clump`, the keys of `members` are kept;
* `std::map` of members is a list of keys without repetition, its order is not observable here;
* interactions are in `Verif/Intr`, geometry (`Clump::updateProperties`) is in `Verif/ClumpMech`;
  the exception `updateProperties` throws for a clump without members is kept.
-/
namespace Verif.Bodies
open Verif

/-- core/Body.hpp:80–94 (`id`, `clumpId`) and core/Clump.hpp (`members` of a body whose shape is a
`Clump`; `none` for any other shape). -/
structure BObj where
  id : Int
  clumpId : Int
  members : Option (List Int)
  deriving DecidableEq, Repr

/-- core/Body.cpp:8 `ID_NONE = -1` -/
def idNone : Int := -1

namespace BObj
/-- `b->id=i` -/
def setId (b : BObj) (i : Int) : BObj := ⟨i, b.clumpId, b.members⟩
/-- `b->clumpId=c` -/
def setClump (b : BObj) (c : Int) : BObj := ⟨b.id, c, b.members⟩
/-- assignment to the keys of `clump->members` -/
def setMembers (b : BObj) (ms : List Int) : BObj := ⟨b.id, b.clumpId, some ms⟩
@[simp] theorem setId_id (b : BObj) (i : Int) : (b.setId i).id = i := rfl
@[simp] theorem setId_clump (b : BObj) (i : Int) : (b.setId i).clumpId = b.clumpId := rfl
@[simp] theorem setId_members (b : BObj) (i : Int) : (b.setId i).members = b.members := rfl
@[simp] theorem setClump_id (b : BObj) (i : Int) : (b.setClump i).id = b.id := rfl
@[simp] theorem setClump_clump (b : BObj) (i : Int) : (b.setClump i).clumpId = i := rfl
@[simp] theorem setClump_members (b : BObj) (i : Int) : (b.setClump i).members = b.members := rfl
@[simp] theorem setMembers_id (b : BObj) (m : List Int) : (b.setMembers m).id = b.id := rfl
@[simp] theorem setMembers_clump (b : BObj) (m : List Int) : (b.setMembers m).clumpId = b.clumpId := rfl
@[simp] theorem setMembers_members (b : BObj) (m : List Int) : (b.setMembers m).members = some m := rfl
/-- core/Body.hpp:42 -/
def isClump (b : BObj) : Bool := b.clumpId != idNone && b.id == b.clumpId
/-- core/Body.hpp:44 -/
def isClumpMember (b : BObj) : Bool := b.clumpId != idNone && b.id != b.clumpId
/-- core/Body.hpp:46 -/
def isStandalone (b : BObj) : Bool := b.clumpId == idNone
end BObj

/-- `slots` is `BodyContainer::body` (core/BodyContainer.hpp:80); `next` is the next unused
reference. -/
structure BSt where
  slots : List (Option Nat)
  heap : Nat → BObj
  next : Nat

/-- replace one object -/
def upd (f : Nat → BObj) (r : Nat) (o : BObj) : Nat → BObj := fun x => if x = r then o else f x

/-- Raw `body[id]`; `none` outside the vector (a negative id becomes a huge unsigned index,
core/BodyContainer.hpp:71). -/
def slotAt (s : BSt) (id : Int) : Option (Option Nat) :=
  if 0 ≤ id then s.slots[id.toNat]? else none

/-- `new Body()` / `utils.sphere(...)`: a fresh standalone body, core/Body.hpp:80–94 defaults. -/
def newBody (s : BSt) : BSt × Nat :=
  ({ s with heap := upd s.heap s.next ⟨idNone, idNone, none⟩, next := s.next + 1 }, s.next)

/-- core/BodyContainer.cpp:18–28 `insert` -/
def insert (s : BSt) (r : Nat) : BSt × Int :=
  ({ s with
      heap := upd s.heap r ((s.heap r).setId s.slots.length),   -- line 22
      slots := s.slots ++ [some r] },                                -- line 24
   s.slots.length)

/-- py/wrapper/yadeWrapper.cpp:87–91 `append` -/
def append (s : BSt) (r : Nat) : Res (BSt × Int) :=
  if (s.heap r).id ≥ 0 then .throws else .ok (insert s r)

/-- core/BodyContainer.cpp:30–39 `insertAtId`; `body[candidate]` is read before the range check.
Returns −1 for an occupied slot. -/
def insertAtId (s : BSt) (r : Nat) (cand : Int) : Res (BSt × Int) :=
  match slotAt s cand with
  | none => .ub                                                      -- line 31, body[candidate]
  | some (some _) => .ok (s, -1)                                     -- line 31
  | some none =>
    .ok ({ s with heap := upd s.heap r ((s.heap r).setId cand), -- line 35
                  slots := s.slots.set cand.toNat (some r) }, cand)  -- line 37

/-- core/BodyContainer.cpp:14–16 `clear` -/
def clear (s : BSt) : BSt := { s with slots := [] }

/-- Truncation to a 32 bit `int`. -/
def wrap32 (x : Int) : Int := (x + 2147483648) % 4294967296 - 2147483648

/-- py/wrapper/yadeWrapper.cpp:82–86 `pyGetitem`: `_id` is a 32 bit int; the conditional expression
has type `size_t` (64 bit) and is then narrowed to `int`. -/
def pyGetitem (s : BSt) (id : Int) : Res (Option Nat) :=
  let i := if id ≥ 0 then id else wrap32 (((s.slots.length : Int) + id) % 18446744073709551616)
  if i < 0 || i ≥ s.slots.length then .throws
  else match slotAt s i with
    | some o => .ok o
    | none => .ub

/-- core/BodyContainer.hpp:74–76 `exists` -/
def existsBody (s : BSt) (id : Int) : Res Bool :=
  if 0 ≤ id ∧ id < s.slots.length then
    match slotAt s id with
    | some o => .ok o.isSome
    | none => .ub
  else .ok false

/-! ### Clumps

The clump operations are written in a small state monad whose exception outcome keeps the state
reached so far (an exception does not undo what was done to the container). -/

/-- Outcome of an operation on the container: normal end, C++/Python exception (with the state at that
point), undefined behaviour, recursion deeper than the fuel given. -/
inductive Run (α : Type) where
  | ok (s : BSt) (a : α)
  | throws (s : BSt)
  | ub
  | nofuel

/-- operations on the container -/
def M (α : Type) : Type := BSt → Run α

instance : Monad M where
  pure a := fun s => .ok s a
  bind m f := fun s => match m s with
    | .ok s1 a => f a s1
    | .throws s1 => .throws s1
    | .ub => .ub
    | .nofuel => .nofuel

/-- read the state -/
def getS : M BSt := fun s => .ok s s
/-- the object `r` -/
def obj (r : Nat) : M BObj := fun s => .ok s (s.heap r)
/-- overwrite the object `r` -/
def setObj (r : Nat) (o : BObj) : M Unit := fun s => .ok { s with heap := upd s.heap r o } ()
/-- throw -/
def raise {α : Type} : M α := fun s => .throws s
/-- undefined behaviour -/
def undef {α : Type} : M α := fun _ => .ub
/-- out of fuel -/
def noFuel {α : Type} : M α := fun _ => .nofuel
/-- `*Body::byId(id)` (core/Body.cpp:10): outside the vector or null is undefined behaviour. -/
def byId (id : Int) : M Nat := fun s => match slotAt s id with
  | some (some r) => .ok s r
  | _ => .ub
/-- `YADE_PTR_CAST<Clump>(body->shape)->members`: undefined if the shape is no Clump (static cast). -/
def membersOf (r : Nat) : M (List Int) := fun s => match (s.heap r).members with
  | some ms => .ok s ms
  | none => .ub
/-- `for (x : l) f(x)` -/
def forEach {α : Type} (f : α → M Unit) : List α → M Unit
  | [] => pure ()
  | a :: as => do f a; forEach f as

/-- core/Clump.cpp:47–53 `Clump::del(clumpBody, subBody)` -/
def clumpDel (c b : Nat) : M Unit := do
  let ms ← membersOf c
  let ob ← obj b
  if ob.id ∈ ms then do                                                   -- line 50
    let oc ← obj c
    setObj c (oc.setMembers ((ms.filter (· ≠ ob.id))))
    let ob ← obj b
    setObj b (ob.setClump idNone)                                -- line 51
  else raise

/-- `map[k]=…` -/
def addKey (ms : List Int) (k : Int) : List Int := if k ∈ ms then ms else ms ++ [k]

/-- core/Clump.cpp:29–34, one round of the loop over the members of a clump added to clump `c`. -/
def adoptMember (c : Nat) (m : Int) : M Unit := do
  let r ← byId m
  let oc ← obj c
  let o ← obj r
  setObj r (o.setClump oc.id)
  let ms ← membersOf c
  let oc ← obj c
  setObj c (oc.setMembers ((addKey ms m)))

/-- core/Clump.cpp:20–45 `Clump::add(clumpBody, subBody)` -/
def clumpAdd (c b : Nat) : M Unit := do
  let ms ← membersOf c
  let ob ← obj b
  if ob.id ∈ ms then raise                                                -- line 24
  else if ob.isClumpMember then raise                                     -- line 26
  else do
    if ob.isClump then do                                                 -- lines 27–36
      let sm ← membersOf b
      forEach (adoptMember c) sm
    else do                                                               -- lines 37–41
      let oc ← obj c
      setObj c (oc.setMembers ((addKey ms ob.id)))
      let ob ← obj b
      setObj b (ob.setClump oc.id)
    let oc ← obj c
    setObj c (oc.setClump oc.id)                                 -- line 43

/-- core/Clump.cpp:88–94: `updateProperties` changes no membership; it throws for a clump without
members (line 93). -/
def updateProps (c : Nat) : M Unit := do
  let ms ← membersOf c
  if ms = [] then raise else pure ()

/-- `new Body` with a `Clump` shape (py/wrapper/yadeWrapper.cpp:101–104) -/
def newClumpBody : M Nat := fun s =>
  .ok { s with heap := upd s.heap s.next ⟨idNone, idNone, some []⟩, next := s.next + 1 } s.next

/-- `proxee->insert` -/
def insertM (r : Nat) : M Int := fun s => .ok (insert s r).1 (insert s r).2

/-- py/wrapper/yadeWrapper.cpp:107–111, one round of the first loop of `clump` -/
def clumpDetach (id : Int) : M Unit := do
  let b ← byId id
  let ob ← obj b
  if ob.isClumpMember then do
    let c ← byId ob.clumpId
    clumpDel c b
  else pure ()

/-- py/wrapper/yadeWrapper.cpp:113, one round of the second loop of `clump` -/
def clumpAttach (c : Nat) (id : Int) : M Unit := do
  let b ← byId id
  clumpAdd c b

/-- py/wrapper/yadeWrapper.cpp:99–117 `clump(ids)` -/
def clump (ids : List Int) : M Int := do
  let c ← newClumpBody
  let cid ← insertM c
  forEach clumpDetach ids
  forEach (clumpAttach c) ids
  updateProps c
  pure cid

/-! ### Erasing -/

/-- core/BodyContainer.cpp:65 and 73: the slot becomes null. -/
def dropSlot (id : Int) : M Unit := fun s => .ok { s with slots := s.slots.set id.toNat none } ()

/-- core/BodyContainer.cpp:41–75 `erase(id, eraseClumpMembers)`.  The recursion of the code is cut by
`fuel`.  `b` in the code is a reference to the slot, so it is read again after the first part. -/
def eraseF : Nat → Int → Bool → M Bool
  | 0, _, _ => noFuel
  | n + 1, id, flag => fun s =>
    match slotAt s id with
    | none => .ub                                                  -- line 42, body[id]
    | some none => .ok s false                                     -- line 42
    | some (some b) => (do
      let ob ← obj b
      if ob.isClumpMember then do                                  -- lines 44–49
        let c ← byId ob.clumpId
        clumpDel c b
        let ms ← membersOf c
        if ms = [] then do
          let oc ← obj c
          let _ ← eraseF n oc.id false                             -- line 48
          pure ()
        else pure ()
      else pure ()
      let b ← byId id
      let ob ← obj b
      if ob.isClump then do                                        -- lines 51–66
        let ms ← membersOf b
        forEach (fun m => if flag then do
            let _ ← eraseF n m false                               -- line 59
            pure ()
          else do
            let r ← byId m                                         -- line 62
            let o ← obj r
            setObj r (o.setClump idNone)) ms
        dropSlot id
        pure true
      else do                                                      -- lines 68–74
        setObj b (ob.setId (-1))
        dropSlot id
        pure true : M Bool) s

/-- Enough fuel for every scene met here. -/
def erase (id : Int) (flag : Bool) : M Bool := eraseF 4 id flag

/-! ### Python clump operations -/

/-- py/wrapper/yadeWrapper.cpp:186–200, one round of the loop of `addToClump`: `none` for the early
`return` after a warning, otherwise the ids to erase at the end. -/
def addToClumpOne (clp : Nat) (bid : Int) : M (Option (List Int)) := do
  let bp ← byId bid
  let o ← obj bp
  if o.isClump then
    if bp = clp then pure none
    else do clumpAdd clp bp; pure (some [bid])
  else if o.isClumpMember then do
    let bc ← byId o.clumpId
    if bc = clp then pure none
    else do clumpAdd clp bc; pure (some [o.clumpId])
  else do clumpAdd clp bp; pure (some [])

/-- the loop of `addToClump`: `none` for the early return, otherwise the list of ids to erase -/
def addToClumpLoop (clp : Nat) : List Int → List Int → M (Option (List Int))
  | [], el => pure (some el)
  | bid :: bids, el => do
    match ← addToClumpOne clp bid with
    | none => pure none
    | some e => addToClumpLoop clp bids (el ++ e)

/-- py/wrapper/yadeWrapper.cpp:180–203 `addToClump(bids, cid)`; `checkClump` throws if `cid` is no
clump (yadeWrapper.cpp:66–71). -/
def addToClump (bids : List Int) (cid : Int) : M Unit := do
  let clp ← byId cid
  let o ← obj clp
  if !o.isClump then raise
  else do
    match ← addToClumpLoop clp bids [] with
    | none => pure ()
    | some el => do
      updateProps clp
      forEach (fun id => do let _ ← erase id false; pure ()) el

/-- py/wrapper/yadeWrapper.cpp:204–219 `releaseFromClump(bid, cid)` -/
def releaseFromClump (bid cid : Int) : M Unit := do
  let bp ← byId bid
  let clp ← byId cid
  let oc ← obj clp
  if !oc.isClump then raise
  else do
    let ob ← obj bp
    if ob.isClumpMember then
      if cid = ob.clumpId then do
        let ms ← membersOf clp
        if ms.length = 2 then pure ()
        else do clumpDel clp bp; updateProps clp
      else pure ()
    else pure ()

/-! ### Iteration -/

/-- core/BodyContainer.hpp:43, the loop `while (!*it && end!=it) ++it` from position `pos`.  `atEnd` is
the truth value found when the element behind the last one is read: `none` if that read is not
survived.  `fuel` is the number of positions up to the end, plus one. -/
def skipNull (slots : List (Option Nat)) (atEnd : Option Bool) : Nat → Nat → Option Nat
  | 0, _ => none
  | n + 1, pos =>
    match slots[pos]? with
    | some (some _) => some pos
    | some none => skipNull slots atEnd n (pos + 1)
    | none =>                                            -- *end is read before the comparison
      match atEnd with
      | none => none
      | some true => some pos
      | some false => some pos                           -- end==it stops the loop

/-- core/BodyContainer.hpp:41–44 `operator++` -/
def iterNext (slots : List (Option Nat)) (atEnd : Option Bool) (pos : Nat) : Option Nat :=
  skipNull slots atEnd (slots.length + 2) (pos + 1)

/-- core/BodyContainer.hpp:60–63 `begin` -/
def iterBegin (slots : List (Option Nat)) (atEnd : Option Bool) : Option Nat :=
  match slots[0]? with
  | none => some 0                                        -- empty container: begin==end
  | some (some _) => some 0
  | some none => iterNext slots atEnd 0

/-- A `for` loop over the container (core/BodyContainer.hpp:60–68): the positions visited. -/
def iterLoop (slots : List (Option Nat)) (atEnd : Option Bool) : Nat → Nat → Option (List Nat)
  | 0, _ => none
  | n + 1, pos =>
    if pos = slots.length then some []
    else match iterNext slots atEnd pos with
      | some p => (iterLoop slots atEnd n p).map (fun l => pos :: l)
      | none => none

/-- whole iteration -/
def iterate (slots : List (Option Nat)) (atEnd : Option Bool) : Option (List Nat) :=
  match iterBegin slots atEnd with
  | some p => iterLoop slots atEnd (slots.length + 1) p
  | none => none

end Verif.Bodies
