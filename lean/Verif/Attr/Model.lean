import Verif.Base
/-!
# Model of small user-visible attributes

* the string form of the blocked degrees of freedom of a body state (core/State.cpp, core/State.hpp),
* the tags of the simulation, `O.tags` (py/wrapper/yadeWrapper.cpp, class `pyTags`),
* the material container, `O.materials` (py/wrapper/yadeWrapper.cpp, class `pyMaterialContainer`;
  core/Material.cpp).

Simplifications: a C++ `std::string` is a `List Char`; `unsigned` is `Nat` (all values written by the
modelled code are below 64); `Material` objects are opaque references `Nat` with the two attributes that
matter, `id` and `label`, kept in a heap.
-/
namespace Verif.Attr
open Verif

/-! ## Blocked degrees of freedom -/

/-- core/State.hpp:18 `DOF_X=1`. -/
def DOF_X : Nat := 1
/-- core/State.hpp:18 `DOF_Y=2`. -/
def DOF_Y : Nat := 2
/-- core/State.hpp:18 `DOF_Z=4`. -/
def DOF_Z : Nat := 4
/-- core/State.hpp:18 `DOF_RX=8`. -/
def DOF_RX : Nat := 8
/-- core/State.hpp:18 `DOF_RY=16`. -/
def DOF_RY : Nat := 16
/-- core/State.hpp:18 `DOF_RZ=32`. -/
def DOF_RZ : Nat := 32
/-- core/State.hpp:20 `DOF_ALL`. -/
def DOF_ALL : Nat := DOF_X ||| DOF_Y ||| DOF_Z ||| DOF_RX ||| DOF_RY ||| DOF_RZ

/-- core/State.hpp:27 `axisDOF`: `1<<(axis+(rotationalDOF?3:0))`. -/
def axisDOF (axis : Nat) (rotational : Bool) : Nat := 1 <<< (axis + if rotational then 3 else 0)

/-- core/State.cpp:17 macro `_SET_DOF`: appends the letter if the bit is set. -/
def setDof (bits dof : Nat) (ch : Char) (ret : List Char) : List Char :=
  if bits &&& dof ≠ 0 then ret ++ [ch] else ret

/-- core/State.cpp:15–27 `State::blockedDOFs_vec_get`, the Python attribute `blockedDOFs` when read. -/
def dofsGet (bits : Nat) : List Char :=
  setDof bits DOF_RZ 'Z' (setDof bits DOF_RY 'Y' (setDof bits DOF_RX 'X'
    (setDof bits DOF_Z 'z' (setDof bits DOF_Y 'y' (setDof bits DOF_X 'x' [])))))

/-- core/State.cpp:32–38: the body of the loop, what one letter does to the bits. -/
def getDof (bits : Nat) (c : Char) : Nat :=
  if c = 'x' then bits ||| DOF_X
  else if c = 'y' then bits ||| DOF_Y
  else if c = 'z' then bits ||| DOF_Z
  else if c = 'X' then bits ||| DOF_RX
  else if c = 'Y' then bits ||| DOF_RY
  else if c = 'Z' then bits ||| DOF_RZ
  else bits

/-- core/State.cpp:29–41 `State::blockedDOFs_vec_set`, the Python attribute `blockedDOFs` when assigned.
The previous value is overwritten (line 30). -/
def dofsSet (_old : Nat) (dofs : List Char) : Nat := dofs.foldl getDof 0

/-- core/State.cpp:6–13 `State::setDOFfromVector3r`; each argument tells whether the component equals 1. -/
def dofsFromVectors (d0 d1 d2 r0 r1 r2 : Bool) : Nat :=
  (if d0 then DOF_X else 0) ||| (if d1 then DOF_Y else 0) ||| (if d2 then DOF_Z else 0) |||
  (if r0 then DOF_RX else 0) ||| (if r1 then DOF_RY else 0) ||| (if r2 then DOF_RZ else 0)

/-- core/Body.hpp:51 `isDynamic`. -/
def isDynamic (bits : Nat) : Bool := bits != DOF_ALL
/-- core/Body.hpp:52 `setDynamic`, the effect on the blocked degrees of freedom. -/
def setDynamic (_old : Nat) (d : Bool) : Nat := if d then 0 else DOF_ALL

/-! ## Tags -/

/-- a stored tag, `"key=value"` -/
abbrev Str := List Char

/-- boost `starts_with(val, p)`. -/
def startsWith (val p : Str) : Bool := p.isPrefixOf val

/-- py/wrapper/yadeWrapper.cpp:413 `pyTags::hasKey` (`__contains__` and `has_key`). -/
def hasKey (tags : List Str) (key : Str) : Bool := tags.any fun val => startsWith val (key ++ ['='])

/-- py/wrapper/yadeWrapper.cpp:414–420 `pyTags::getItem`. -/
def getItem (tags : List Str) (key : Str) : Res Str :=
  match tags with
  | [] => .throws
  | val :: rest => if startsWith val (key ++ ['=']) then .ok (val.drop (key.length + 1)) else getItem rest key

/-- py/wrapper/yadeWrapper.cpp:426–427: the loop replacing the first matching tag, appending otherwise. -/
def putItem (tags : List Str) (key item : Str) : List Str :=
  match tags with
  | [] => [key ++ '=' :: item]
  | val :: rest => if startsWith val (key ++ ['=']) then (key ++ '=' :: item) :: rest else val :: putItem rest key item

/-- py/wrapper/yadeWrapper.cpp:421–428 `pyTags::setItem`; a key with `=` raises `KeyError`. -/
def setItem (tags : List Str) (key item : Str) : Res (List Str) :=
  if key.contains '=' then .throws else .ok (putItem tags key item)

/-- py/wrapper/yadeWrapper.cpp:429–437 `pyTags::keys`. -/
def keys (tags : List Str) : Res (List Str) :=
  match tags with
  | [] => .ok []
  | val :: rest =>
    if val.contains '=' then
      match keys rest with
      | .ok ks => .ok (val.takeWhile (· != '=') :: ks)
      | .throws => .throws
      | .ub => .ub
    else .throws

/-- core/Scene.cpp:32–57 `Scene::fillDefaultTags`: the five tags every new simulation starts with; the
text of the values is a parameter. -/
def defaultTags (author isoTime id : Str) : List Str :=
  ["author=".toList ++ author, "isoTime=".toList ++ isoTime, "id=".toList ++ id, "d.id=".toList ++ id,
   "id.d=".toList ++ id]

/-! ## Materials -/

/-- core/Material.hpp: the attributes of a material that the container uses. -/
structure Mat where
  id : Int
  label : Str
  deriving Repr, DecidableEq

/-- Python-side and C++-side view of the materials: objects (by reference) and the vector of references
`Scene::materials`. -/
structure Mats where
  /-- the material objects of the interpreter -/
  obj : Nat → Mat
  /-- core/Scene.hpp `materials` -/
  vec : List Nat

/-- py/wrapper/yadeWrapper.cpp:525 `pyMaterialContainer::append`. -/
def matAppend (s : Mats) (m : Nat) : Mats × Int :=
  let vec := s.vec ++ [m]
  let id : Int := vec.length - 1
  ({ obj := fun r => if r = m then { s.obj m with id := id } else s.obj r, vec := vec }, id)

/-- py/wrapper/yadeWrapper.cpp:526 `pyMaterialContainer::appendList`. -/
def matAppendList (s : Mats) : List Nat → Mats × List Int
  | [] => (s, [])
  | m :: ms => let (s1, i) := matAppend s m; let (s2, is) := matAppendList s1 ms; (s2, i :: is)

/-- core/Material.cpp:5–10 `Material::byId` in an optimised build (asserts off); an index outside the
vector is undefined behaviour. -/
def matById (s : Mats) (id : Int) : Res Nat :=
  if id < 0 then .ub else match s.vec[id.toNat]? with
    | some m => .ok m
    | none => .ub

/-- py/wrapper/yadeWrapper.cpp:519 `pyMaterialContainer::getitem_id`. -/
def matGet (s : Mats) (_id : Int) : Res Nat :=
  let id := if _id ≥ 0 then _id else s.vec.length + _id
  if id < 0 ∨ id ≥ s.vec.length then .throws else matById s id

/-- core/Material.cpp:20–26 `Material::byLabelIndex` from position `i` on. -/
def byLabelIndex (s : Mats) (label : Str) : Nat → List Nat → Res Nat
  | _, [] => .throws
  | i, m :: ms => if (s.obj m).label = label then .ok i else byLabelIndex s label (i + 1) ms

/-- py/wrapper/yadeWrapper.cpp:528 `pyMaterialContainer::index`. -/
def matIndex (s : Mats) (label : Str) : Res Nat := byLabelIndex s label 0 s.vec

/-- core/Material.cpp:12–18 `Material::byLabel`, py/wrapper/yadeWrapper.cpp:520–524 `getitem_label`. -/
def byLabel (s : Mats) (label : Str) : List Nat → Res Nat
  | [] => .throws
  | m :: ms => if (s.obj m).label = label then .ok m else byLabel s label ms

/-- py/wrapper/yadeWrapper.cpp:520–524 `pyMaterialContainer::getitem_label`. -/
def matByLabel (s : Mats) (label : Str) : Res Nat := byLabel s label s.vec

end Verif.Attr
