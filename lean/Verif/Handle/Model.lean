import Verif.Base
import Verif.Mech.Vec
import Mathlib.Analysis.SpecialFunctions.Trigonometric.Basic

/-!
# `py/bodiesHandling.py`

Lists of identifiers; lists of bodies, which the functions take as well, are not modelled, nor are colours and the like.  Real numbers.  Python exceptions are `throws`.
-/
namespace Verif.Handle

open Verif.Mech

/-- A body, with what the functions read and write, core/Body.hpp 84 and 90-92 and core/State.hpp 47-55 (the mask is taken non-negative): `radius` if it has one, the vertices in its own axes if it is a facet, `dof` is `blockedDOFs`. -/
structure Body where
  pos : V3
  ori : Quat
  vel : V3
  radius : Option ℝ
  verts : Option (V3 × V3 × V3)
  mask : ℕ
  mass : ℝ
  inertia : V3
  density : ℝ
  dof : ℕ

/-- `O.bodies`, core/BodyContainer.hpp 28-32: `none` for erased ones. -/
abbrev Scene := List (Option Body)

/-- The index of `O.bodies[i]`, py/wrapper/yadeWrapper.cpp 82-86 (`pyGetitem`). -/
def idx (sc : Scene) (i : ℤ) : Option ℕ :=
  let j := if i ≥ 0 then i else sc.length + i
  if j < 0 ∨ j ≥ sc.length then none else some j.toNat

/-- Whether a body is to be skipped because of its mask, bodiesHandling.py 66, 146 and 214. -/
def skips (mask : ℤ) (b : Body) : Bool := decide (mask > -1) && decide (mask.toNat &&& b.mask = 0)

/-- The identifiers of bodies with a mask, bodiesHandling.py 27-29, 108-110 and 187-189; the iteration leaves erased bodies out, py/wrapper/yadeWrapper.cpp 57-61. -/
def masked (sc : Scene) (mask : ℤ) : List ℤ :=
  ((List.range sc.length).filter fun k => match (sc[k]?).join with
    | some b => decide (b.mask &&& mask.toNat ≠ 0)
    | none => false).map Int.ofNat

/-- The identifiers to look at, bodiesHandling.py 21-37, 102-118 and 181-197; at least `least` of them have to have the mask. -/
def chosen (least : ℕ) (sc : Scene) (ids : List ℤ) (mask : ℤ) : Res (List ℤ) :=
  if ids.length < 1 then
    if mask > -1 then
      if (masked sc mask).length < least then .throws else .ok (masked sc mask)
    else .throws
  else .ok ids

/-- Extremes with the identifiers where they are reached, and the number of bodies so far, bodiesHandling.py 40-46 and 121-127. -/
structure Ext where
  lo : V3
  hi : V3
  loId : Fin 3 → ℕ
  hiId : Fin 3 → ℕ
  n : ℕ

/-- Initial values, bodiesHandling.py 40-46 and 121-127. -/
def Ext.zero : Ext := ⟨0, 0, fun _ => 0, fun _ => 0, 0⟩

/-- One body, bodiesHandling.py 74-80 with 83, and 151-158. -/
noncomputable def Ext.add (e : Ext) (id : ℕ) (lo hi : V3) : Ext :=
  open Classical in
  { hi := fun k => if hi k > e.hi k ∨ e.n = 0 then hi k else e.hi k
    hiId := fun k => if hi k > e.hi k ∨ e.n = 0 then id else e.hiId k
    lo := fun k => if lo k < e.lo k ∨ e.n = 0 then lo k else e.lo k
    loId := fun k => if lo k < e.lo k ∨ e.n = 0 then id else e.loId k
    n := e.n + 1 }

/-- Extremes, volume and mass: the dictionary returned, bodiesHandling.py 88-89. -/
structure Dims where
  ext : Ext
  volume : ℝ
  mass : ℝ

/-- `center`, bodiesHandling.py 85 and 160. -/
noncomputable def Ext.center (e : Ext) : V3 := (1 / 2 : ℝ) • (e.hi - e.lo) + e.lo

/-- The loop of `spheresPackDimensions`, bodiesHandling.py 51-83. -/
noncomputable def sphereLoop (sc : Scene) (mask : ℤ) : Dims → List ℤ → Res Dims
  | d, [] => .ok d
  | d, i :: is =>
    match idx sc i with
    | none => .throws
    | some k =>
      match (sc[k]?).join with
      | none => sphereLoop sc mask d is
      | some b =>
        match b.radius with
        | none => sphereLoop sc mask d is
        | some r =>
          if skips mask b then sphereLoop sc mask d is
          else sphereLoop sc mask ⟨d.ext.add k (b.pos - fun _ => r) (b.pos + fun _ => r), d.volume + 4 / 3 * Real.pi * r * r * r, d.mass + b.mass⟩ is

/-- `spheresPackDimensions`, bodiesHandling.py 12-90. -/
noncomputable def sphereDims (sc : Scene) (ids : List ℤ) (mask : ℤ) : Res Dims :=
  (chosen 2 sc ids mask).bind fun is => sphereLoop sc mask ⟨Ext.zero, 0, 0⟩ is

/-- The box of a facet, bodiesHandling.py 139-144 and 148-149. -/
noncomputable def facetBox (b : Body) (v : V3 × V3 × V3) : V3 × V3 :=
  let p1 := b.pos + b.ori.rot v.1
  let p2 := b.pos + b.ori.rot v.2.1
  let p3 := b.pos + b.ori.rot v.2.2
  (fun k => min (min (p1 k) (p2 k)) (p3 k), fun k => max (max (p1 k) (p2 k)) (p3 k))

/-- The loop of `facetsDimensions`, bodiesHandling.py 130-158: a body without vertices is an error, line 142, before the mask is looked at, line 146. -/
noncomputable def facetLoop (sc : Scene) (mask : ℤ) : Ext → List ℤ → Res Ext
  | e, [] => .ok e
  | e, i :: is =>
    match idx sc i with
    | none => .throws
    | some k =>
      match (sc[k]?).join with
      | none => facetLoop sc mask e is
      | some b =>
        match b.verts with
        | none => .throws
        | some v => if skips mask b then facetLoop sc mask e is else facetLoop sc mask (e.add k (facetBox b v).1 (facetBox b v).2) is

/-- `facetsDimensions`, bodiesHandling.py 93-165. -/
noncomputable def facetDims (sc : Scene) (ids : List ℤ) (mask : ℤ) : Res Ext :=
  (chosen 2 sc ids mask).bind fun is => facetLoop sc mask Ext.zero is

/-- What is done to a sphere, bodiesHandling.py 218-224; `c` is the centre. -/
noncomputable def change (c shift : V3) (scale : ℝ) (q : Quat) (b : Body) : Body :=
  let p := q.rot (b.pos - c) + c
  { b with
    radius := b.radius.map (· * scale), mass := b.mass * scale ^ 3, inertia := (scale ^ 5) • b.inertia
    pos := scale • (p - c) + c + shift }

/-- `sphereDuplicate`, bodiesHandling.py 234-252, through `utils.sphere`, py/utils.py 202-209 and 123-132 (a new state), with `Body.dynamic`, core/Body.hpp 51: not moving nor turned, all or no degrees of freedom blocked, mass
and inertia computed from the density. -/
noncomputable def duplicate (b : Body) (r : ℝ) : Body :=
  let V := 4 / 3 * Real.pi * r ^ 3
  { pos := b.pos, ori := Quat.one, vel := 0, radius := some r, verts := none, mask := b.mask, mass := V * b.density
    inertia := fun _ => 2 / 5 * V * r ^ 2 * b.density, density := b.density, dof := if b.dof = 63 then 63 else 0 }

/-- The loop of `spheresModify`, bodiesHandling.py 202-226: the scene and the list of copies. An erased body is skipped like a non-sphere, lines 210-212. -/
noncomputable def modifyLoop (mask : ℤ) (f : Body → Body) (copy : Bool) : Scene → List Body → List ℤ → Res (Scene × List Body)
  | sc, out, [] => .ok (sc, out)
  | sc, out, i :: is =>
    match idx sc i with
    | none => .throws
    | some k =>
      match (sc[k]?).join with
      | none => modifyLoop mask f copy sc out is
      | some b =>
        match b.radius with
        | none => modifyLoop mask f copy sc out is
        | some r =>
          if skips mask b then modifyLoop mask f copy sc out is
          else if copy then modifyLoop mask f copy sc (out ++ [f (duplicate b r)]) is
          else modifyLoop mask f copy (sc.set k (some (f b))) out is

/-- `spheresModify`, bodiesHandling.py 168-231: the dimensions are those of the list without the mask, line 199. -/
noncomputable def modify (sc : Scene) (ids : List ℤ) (mask : ℤ) (shift : V3) (scale : ℝ) (q : Quat) (copy : Bool) : Res (Scene × List Body) :=
  (chosen 1 sc ids mask).bind fun is =>
    (sphereDims sc is (-1)).bind fun d => modifyLoop mask (change d.ext.center shift scale q) copy sc [] is

end Verif.Handle
