import Verif.Base
/-!
# Model of the functor dispatch

Transcribes `lib/multimethods/DynLibDispatcher.hpp:104–359` (dispatch matrices, registration, lookup with caching),
`lib/multimethods/Indexable.hpp` (class indices) and `core/Dispatcher.hpp:41–46` (`add`, `functors_set`).

Simplifications: all classes have got their index before a dispatcher is filled (core/Omega.cpp:133–141
instantiates every class at start), so `getMaxCurrentlyUsedClassIndex` is a constant; a class is
represented by its index and a functor by an object with identity; `assert`s are absent, as in a release build
(CMakeLists.txt:93 `-DNDEBUG`), so that an index out of range is undefined behaviour. Simultaneous lookups by
several threads are not modelled.
-/
namespace Verif.Dispatch
open Verif

/-- Class hierarchy below one top-level indexable class. `anc c` lists the ancestors of class `c`, nearest first,
without the top-level class. (lib/multimethods/Indexable.hpp:55–68 `REGISTER_CLASS_INDEX`; an
index is given in the constructor, `createIndex` :27–35, so a base class, being constructed first, has the
smaller index.) -/
structure Hier where
  /-- number of indices in use, `getMaxCurrentlyUsedClassIndex()+1` -/
  n : Nat
  anc : Nat → List Nat
  coh : ∀ c, anc c = [] ∨ ∃ p, anc c = p :: anc p
  lt : ∀ c, ∀ a ∈ anc c, a < c

/-- outcome of `getBaseClassIndex` -/
inductive Base where
  | ix (i : Int)
  | logicError
  deriving DecidableEq

/-- Indexable.hpp:59–63 `getBaseClassIndex(depth)`, `depth≥1`: an ancestor, `-1` for the top-level class, beyond it
an exception (:78) -/
def Hier.getBase (H : Hier) (c depth : Nat) : Base :=
  match (H.anc c)[depth - 1]? with
  | some a => .ix a
  | none => if depth - 1 = (H.anc c).length then .ix (-1) else .logicError

/-! ## One dimension -/

/-- dispatch matrix of a one-dimensional dispatcher (DynLibDispatcher.hpp:104–105): `cb i` is meaningful for
`i<len`; of `callBacksInfo` only the size matters -/
structure D1 (F : Type) where
  cb : Nat → Option F
  len : Nat
  infoLen : Nat

def upd1 {α : Type} (f : Nat → α) (i : Nat) (v : α) : Nat → α := fun j => if j = i then v else f j

/-- DynLibDispatcher.hpp:116–119 `clearMatrix` -/
def clear1 {F : Type} : D1 F := ⟨fun _ => none, 0, 0⟩

/-- DynLibDispatcher.hpp:183–202 `add1DEntry` for the class with index `c` -/
def add1 {F : Type} (H : Hier) (d : D1 F) (c : Nat) (f : F) : Res (D1 F) :=
  if c < H.n then .ok { d with cb := upd1 (fun i => if i < d.len then d.cb i else none) c (some f), len := H.n }
  else .ub

/-- the loop DynLibDispatcher.hpp:276–294, over the ancestors from depth 1 on; `-1` ends it -/
def walk1 {F : Type} (d : D1 F) (c : Nat) : List Nat → Res (D1 F × Option F)
  | [] => .ok (d, none)
  | a :: as =>
    if a < d.len then
      match d.cb a with
      | some f =>
        -- `callBacksInfo[index]=callBacksInfo[index_tmp]` after growing to index+1
        let il := max d.infoLen (c + 1)
        if a < il then .ok ({ d with cb := upd1 d.cb c (some f), infoLen := il }, some f) else .ub
      | none => walk1 d c as
    else .ub

/-- DynLibDispatcher.hpp:268–297 `locateMultivirtualFunctor1D` with the functor found at the resulting index -/
def locate1 {F : Type} (H : Hier) (d : D1 F) (c : Int) : Res (D1 F × Option F) :=
  if d.len = 0 then .ok (d, none)
  else if c < 0 ∨ c ≥ d.len then .ub
  else match d.cb c.toNat with
    | some f => .ok (d, some f)
    | none => walk1 d c.toNat (H.anc c.toNat)

/-- DynLibDispatcher.hpp:121–126 `getExecutor`, which tests the index first -/
def getExecutor1 {F : Type} (H : Hier) (d : D1 F) (c : Int) : Res (D1 F × Option F) :=
  if c < 0 then .throws else locate1 H d c

/-- pkg/common/Dispatching.cpp:35 (likewise pkg/common/InteractionLoop.cpp:97–98, 132–133, 148–149): the functor used for
an object is remembered in the object (`cache`) and only looked up if there is none -/
def useFunctor {F : Type} (H : Hier) (d : D1 F) (cache : Option F) (c : Int) : Res (D1 F × Option F) :=
  match cache with
  | some f => .ok (d, some f)
  | none => getExecutor1 H d c

/-! ## Two dimensions -/

/-- A functor object: `id` its identity, `c1 c2` the classes it is registered for
(`get2DFunctorType1/2`), `order` the classes named by `checkOrder()` if defined -/
structure Fn where
  id : Nat
  /-- class name of the functor -/
  cls : Nat
  c1 : Nat
  c2 : Nat
  order : Option (Nat × Nat)
  deriving DecidableEq

/-- dispatch matrix of a two-dimensional dispatcher: `n1` rows of `n2` entries -/
structure D2 where
  cb : Nat → Nat → Option Fn
  info : Nat → Nat → Bool
  n1 : Nat
  n2 : Nat

def upd2 {α : Type} (f : Nat → Nat → α) (i j : Nat) (v : α) : Nat → Nat → α :=
  fun a b => if a = i ∧ b = j then v else f a b

/-- DynLibDispatcher.hpp:116–119 `clearMatrix` -/
def clear2 : D2 := ⟨fun _ _ => none, fun _ _ => false, 0, 0⟩

/-- DynLibDispatcher.hpp:231–236: grow the matrices, new entries are null / 0 -/
def grow2 (d : D2) (m1 m2 : Nat) : D2 :=
  ⟨fun i j => if i < d.n1 ∧ j < d.n2 then d.cb i j else none,
   fun i j => if i < d.n1 ∧ j < d.n2 then d.info i j else false, m1, m2⟩

/-- write functor and direction of an entry -/
def put2 (d : D2) (i j : Nat) (f : Fn) (rev : Bool) : D2 :=
  { d with cb := upd2 d.cb i j (some f), info := upd2 d.info i j rev }

/-- DynLibDispatcher.hpp:238–264: write the entries. `same`: both base classes are the same type; `auto`: the
template parameter `autoSymmetry`. The order of the writes is that of the code (they coincide on
the diagonal). -/
def write2 (same auto : Bool) (d : D2) (f : Fn) : Res D2 :=
  if same then
    if auto = true ∨ f.order = some (f.c1, f.c2) then
      .ok (put2 (put2 d f.c2 f.c1 f true) f.c1 f.c2 f false)
    else if f.order = some (f.c2, f.c1) then
      .ok (put2 (put2 d f.c2 f.c1 f false) f.c1 f.c2 f true)
    else .throws
  else .ok (put2 d f.c1 f.c2 f false)

/-- DynLibDispatcher.hpp:206–265 `add2DEntry` -/
def add2 (H1 H2 : Hier) (same auto : Bool) (d : D2) (f : Fn) : Res D2 :=
  if f.c1 < H1.n ∧ f.c2 < H2.n then write2 same auto (grow2 d H1.n H2.n) f else .ub

/-- core/Dispatcher.hpp:41, 43 `postLoad`: add the functors in order -/
def addAll2 (H1 H2 : Hier) (same auto : Bool) : D2 → List Fn → Res D2
  | d, [] => .ok d
  | d, f :: fs => do addAll2 H1 H2 same auto (← add2 H1 H2 same auto d f) fs

/-- a dispatcher: its list of functors and its matrix -/
structure Disp where
  functors : List Fn
  d : D2

/-- core/Dispatcher.hpp:43: `add` appends to `functors` unless a functor of that class is there -/
def dispAdd (H1 H2 : Hier) (same auto : Bool) (s : Disp) (f : Fn) : Res Disp := do
  let fs := if s.functors.any (fun g => g.cls = f.cls) then s.functors else s.functors ++ [f]
  let d ← add2 H1 H2 same auto s.d f
  return ⟨fs, d⟩

def dispAdds (H1 H2 : Hier) (same auto : Bool) : Disp → List Fn → Res Disp
  | s, [] => .ok s
  | s, f :: fs => do dispAdds H1 H2 same auto (← dispAdd H1 H2 same auto s f) fs

/-- core/Dispatcher.hpp:46 `functors_set`: empties `functors`, adds the new ones (to the matrix as it is), then
`postLoad` (:41) clears the matrix and adds them once more -/
def functorsSet (H1 H2 : Hier) (same auto : Bool) (s : Disp) (fs : List Fn) : Res Disp := do
  let s ← dispAdds H1 H2 same auto { s with functors := [] } fs
  let d ← addAll2 H1 H2 same auto clear2 s.functors
  return ⟨s.functors, d⟩

/-- outcome of a two-dimensional lookup; an exception leaves the matrix as it is at that moment -/
inductive LR (α : Type) where
  | ok (a : α)
  | ambiguous (d : D2)
  | logicError
  | ub

/-- state of the search DynLibDispatcher.hpp:328–358 -/
structure LS where
  d : D2
  max1 : Option Nat
  max2 : Option Nat
  tooBig : Bool
  found : Option (Nat × Nat)

/-- DynLibDispatcher.hpp:337: `dp>0 ? base->getBaseClassIndex(dp) : index` -/
def baseIx (H : Hier) (c dp : Nat) : Base := if dp > 0 then H.getBase c dp else .ix c

/-- DynLibDispatcher.hpp:338–339: remember the depth at which the top of the hierarchy was reached -/
def setMax (m : Option Nat) (ix : Int) (dp : Nat) : Option Nat := if ix < 0 then some dp else m

/-- DynLibDispatcher.hpp:335: depth beyond the top of a hierarchy -/
def over (m : Option Nat) (dp : Nat) : Bool :=
  match m with
  | some k => decide (dp > k)
  | none => false

/-- an entry has been found at `(a,b)` (DynLibDispatcher.hpp:347–349) -/
def hit (c1 c2 : Nat) (s : LS) (a b : Nat) (f : Fn) : LS :=
  { s with d := put2 s.d c1 c2 f (s.d.info a b), found := some (a, b) }

/-- DynLibDispatcher.hpp:343: another functor has been found before at this distance -/
def clash (s : LS) (f : Fn) : Bool :=
  match s.found with
  | some (a, b) => decide (s.d.cb a b ≠ some f)
  | none => false

/-- DynLibDispatcher.hpp:342–351 for valid indices -/
def look (c1 c2 : Nat) (s : LS) (a b : Nat) : LR LS :=
  if a < s.d.n1 ∧ b < s.d.n2 then
    match s.d.cb a b with
    | none => .ok s
    | some f =>
      if clash s f then
        -- the message lists the matrix with `j<callBacks.size()` for the columns (:173–180)
        if s.d.n1 ≤ s.d.n2 then .ambiguous s.d else .ub
      else .ok (hit c1 c2 s a b f)
  else .ub

/-- DynLibDispatcher.hpp:338–341 -/
def look' (c1 c2 : Nat) (s : LS) (dp1 dp2 : Nat) (ix1 ix2 : Int) : LR LS :=
  let s := { s with max1 := setMax s.max1 ix1 dp1, max2 := setMax s.max2 ix2 dp2 }
  if ix1 < 0 ∨ ix2 < 0 then .ok s
  else look c1 c2 { s with tooBig := false } ix1.toNat ix2.toNat

/-- body of the inner loop, DynLibDispatcher.hpp:334–351 -/
def round (H1 H2 : Hier) (c1 c2 dist dp1 : Nat) (s : LS) : LR LS :=
  if over s.max1 dp1 || over s.max2 (dist - dp1) then .ok s
  else match baseIx H1 c1 dp1, baseIx H2 c2 (dist - dp1) with
    | .ix ix1, .ix ix2 => look' c1 c2 s dp1 (dist - dp1) ix1 ix2
    | _, _ => .logicError

/-- inner loop: the rounds `dp1 = dp, dp+1, …`, `k` of them -/
def rounds (H1 H2 : Hier) (c1 c2 dist : Nat) : Nat → Nat → LS → LR LS
  | _, 0, s => .ok s
  | dp, k + 1, s => match round H1 H2 c1 c2 dist dp s with
    | .ok s' => rounds H1 H2 c1 c2 dist (dp + 1) k s'
    | .ambiguous d => .ambiguous d
    | .logicError => .logicError
    | .ub => .ub

/-- outer loop DynLibDispatcher.hpp:330–358 from distance `dist` on; `fuel` bounds the number of distances tried
(running out of it counts as undefined behaviour; it is shown not to happen) -/
def dists (H1 H2 : Hier) (c1 c2 : Nat) : Nat → Nat → LS → LR (D2 × Bool)
  | 0, _, _ => .ub
  | fuel + 1, dist, s =>
    match rounds H1 H2 c1 c2 dist 0 (dist + 1) { s with tooBig := true, found := none } with
    | .ok s' => if s'.found.isSome then .ok (s'.d, true)
        else if s'.tooBig then .ok (s'.d, false)
        else dists H1 H2 c1 c2 fuel (dist + 1) s'
    | .ambiguous d => .ambiguous d
    | .logicError => .logicError
    | .ub => .ub

/-- DynLibDispatcher.hpp:299–359 `locateMultivirtualFunctor2D` -/
def locate2 (H1 H2 : Hier) (d : D2) (c1 c2 : Int) : LR (D2 × Bool) :=
  if d.n1 = 0 then .ok (d, false)
  else if c1 < 0 ∨ c2 < 0 ∨ c1 ≥ d.n1 ∨ c2 ≥ d.n2 then .ub
  else if (d.cb c1.toNat c2.toNat).isSome then .ok (d, true)
  else dists H1 H2 c1.toNat c2.toNat ((H1.anc c1.toNat).length + (H2.anc c2.toNat).length + 2) 1
    ⟨d, none, none, true, none⟩

/-- DynLibDispatcher.hpp:137–142 `getFunctor2D`: the functor and the `swap` flag -/
def getFunctor2 (H1 H2 : Hier) (d : D2) (c1 c2 : Int) : LR (D2 × Option (Fn × Bool)) :=
  match locate2 H1 H2 d c1 c2 with
  | .ok (d', true) => .ok (d', (d'.cb c1.toNat c2.toNat).map fun f => (f, d'.info c1.toNat c2.toNat))
  | .ok (d', false) => .ok (d', none)
  | .ambiguous d' => .ambiguous d'
  | .logicError => .logicError
  | .ub => .ub

end Verif.Dispatch
