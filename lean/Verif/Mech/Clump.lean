import Verif.Mech.Newton
import Mathlib.Algebra.Order.Floor.Ring
import Mathlib.Analysis.Real.Pi.Bounds

/-!
# Clump properties, core/Clump.cpp 88-238 and 471-495

Members are given as existing bodies (a missing one would be a null dereference, see
`Verif.Mech.moveMembers` and the body container model).  The eigensolver of Eigen is a parameter: a function from the matrix
to a pair (eigenvectors as columns, eigenvalues); what it must satisfy is stated in the theorems.
-/
namespace Verif.Mech

/-- Eigen `Quaternion(const Matrix3&)` (`quaternionbase_assign_impl`), used in Clump.cpp 223. -/
noncomputable def Quat.ofMat (m : M3) : Quat :=
  let t := m 0 0 + m 1 1 + m 2 2
  if t > 0 then
    let t := Real.sqrt (t + 1)
    let u := 0.5 / t
    ⟨0.5 * t, (m 2 1 - m 1 2) * u, (m 0 2 - m 2 0) * u, (m 1 0 - m 0 1) * u⟩
  else
    -- i is the index of the largest diagonal element, j and k the next ones cyclically
    if ¬ m 1 1 > m 0 0 ∧ ¬ m 2 2 > m 0 0 then
      let t := Real.sqrt (m 0 0 - m 1 1 - m 2 2 + 1)
      let u := 0.5 / t
      ⟨(m 2 1 - m 1 2) * u, 0.5 * t, (m 1 0 + m 0 1) * u, (m 2 0 + m 0 2) * u⟩
    else if m 1 1 > m 0 0 ∧ ¬ m 2 2 > m 1 1 then
      let t := Real.sqrt (m 1 1 - m 2 2 - m 0 0 + 1)
      let u := 0.5 / t
      ⟨(m 0 2 - m 2 0) * u, (m 0 1 + m 1 0) * u, 0.5 * t, (m 2 1 + m 1 2) * u⟩
    else
      let t := Real.sqrt (m 2 2 - m 0 0 - m 1 1 + 1)
      let u := 0.5 / t
      ⟨(m 1 0 - m 0 1) * u, (m 0 2 + m 2 0) * u, (m 1 2 + m 2 1) * u, 0.5 * t⟩

/-- `off*off.transpose()` (Eigen). -/
def outer (a : V3) : M3 := fun i j => a i * a j

/-- `Clump::inertiaTensorTranslate`, Clump.cpp 471-473. -/
def inertiaTensorTranslate (I : M3) (m : ℝ) (off : V3) : M3 :=
  I + m • (dot off off • (1 : M3) - outer off)

/-- `Clump::inertiaTensorRotate`, Clump.cpp 481-495. -/
def inertiaTensorRotate (I : M3) (rot : Quat) : M3 := rot.toMat.transpose * I * rot.toMat

/-- The shape of a member: `Sphere` or anything else, as tested in Clump.cpp 121, 151, 170 and 191. -/
inductive MShape where
  | sphere (radius : ℝ)
  | other

/-- A member body: id, shape, `material->density` and state. -/
structure Member where
  id : Nat
  shape : MShape
  density : ℝ
  st : State

/-- The test for one pair of members, Clump.cpp 121-127. -/
noncomputable def overlap (a b : Member) : Prop :=
  match a.shape, b.shape with
  | .sphere r1, .sphere r2 =>
    a.id ≠ b.id ∧ r1 + r2 - norm3 (a.st.pos - b.st.pos) > 0.001 * min r1 r2
  | _, _ => False

/-- The variable `intersecting`, Clump.cpp 112-131. -/
def intersecting (disc : Nat) (ms : List Member) : Prop :=
  disc > 0 ∧ ∃ a ∈ ms, ∃ b ∈ ms, overlap a b

/-- Mass, static moment and inertia tensor about the origin, accumulated over members or cells. -/
structure Acc where
  M : ℝ
  Sg : V3
  Ig : M3

/-- The contribution of one member without intersections, Clump.cpp 188-210. -/
noncomputable def addMember (a : Acc) (m : Member) : Acc :=
  match m.shape with
  | .sphere r =>
    let vol := 4 / 3 * Real.pi * r ^ 3
    let mass := m.density * vol
    { M := a.M + mass, Sg := a.Sg + mass • m.st.pos,
      Ig := a.Ig + inertiaTensorTranslate (Matrix.diagonal fun _ => 2 / 5 * mass * r ^ 2) mass
        ((-1 : ℝ) • m.st.pos) }
  | .other =>
    { M := a.M + m.st.mass, Sg := a.Sg + m.st.mass • m.st.pos,
      Ig := a.Ig + inertiaTensorTranslate
        (inertiaTensorRotate (Matrix.diagonal m.st.inertia) m.st.ori) m.st.mass (-m.st.pos) }

/-- Corners of the spheres, along one axis: smallest and largest coordinate, Clump.cpp 148-156.
An empty box (no sphere at all) does not occur when two spheres intersect. -/
noncomputable def boxLo (ms : List Member) (i : Fin 3) : ℝ :=
  (ms.filterMap fun m => match m.shape with
    | .sphere r => some (m.st.pos i - r)
    | .other => none).min?.getD 0

/-- See `boxLo`. -/
noncomputable def boxHi (ms : List Member) (i : Fin 3) : ℝ :=
  (ms.filterMap fun m => match m.shape with
    | .sphere r => some (m.st.pos i + r)
    | .other => none).max?.getD 0

/-- Cell centres along one axis: `for(x=lo+dx/2; x<hi; x+=dx)`, Clump.cpp 165-167. -/
noncomputable def centres (lo hi dx : ℝ) : List ℝ :=
  (List.range ⌈(hi - lo - dx / 2) / dx⌉₊).map fun (k : Nat) => lo + dx / 2 + (k : ℝ) * dx

open Classical in
/-- The contribution of one cell, Clump.cpp 168-181: the first sphere containing the centre. -/
noncomputable def addCell (ms : List Member) (dx : ℝ) (a : Acc) (x : V3) : Acc :=
  match ms.find? (fun m => match m.shape with
      | .sphere r => decide (sqNorm (x - m.st.pos) < r ^ 2)
      | .other => false) with
  | none => a
  | some b =>
    let dv := dx ^ 3
    let m := b.density * dv
    { M := a.M + m, Sg := a.Sg + m • x,
      Ig := a.Ig + (m • (dot x x • (1 : M3) - outer x) + Matrix.diagonal fun _ => dv * dx ^ 2 / 6) }

/-- All cells, Clump.cpp 157-185. -/
noncomputable def discretise (disc : Nat) (ms : List Member) : Acc :=
  let lo := boxLo ms
  let hi := boxHi ms
  let rMin := min (hi 0 - lo 0) (min (hi 1 - lo 1) (hi 2 - lo 2))
  let dx := rMin / disc
  let cells := (centres (lo 0) (hi 0) dx).flatMap fun x =>
    (centres (lo 1) (hi 1) dx).flatMap fun y => (centres (lo 2) (hi 2) dx).map fun z => ![x, y, z]
  cells.foldl (addCell ms dx) ⟨0, 0, 0⟩

/-- Lower triangle overwritten by the upper, Clump.cpp 217. -/
def symmetrize (A : M3) : M3 := fun i j => if j < i then A j i else A i j

/-- What `updateProperties` writes: state of the clump, its aspherical flag and the members'
relative positions. -/
structure Props where
  st : State
  aspherical : Bool
  members : List (Nat × Se3)

open Classical in
/-- The general case of `Clump::updateProperties`, two members or more, Clump.cpp 106-238.  A total mass that
is not positive fails the assertion in line 212 (or gives NaN without assertions). -/
noncomputable def assemble (disc : Nat) (solver : M3 → M3 × V3) (c : State) (ms : List Member) : Res Props :=
  let a := if intersecting disc ms then discretise disc ms else ms.foldl addMember ⟨0, 0, 0⟩
  if a.M > 0 then
    let pos := (1 / a.M) • a.Sg
    let Ic := symmetrize (inertiaTensorTranslate a.Ig (-a.M) pos)
    let d := solver Ic
    let ori := (Quat.ofMat d.1).normalize
    .ok
      { st := { c with pos := pos, ori := ori, inertia := d.2, mass := a.M, vel := 0, angVel := 0 },
        aspherical := decide (d.2 0 ≠ d.2 1 ∨ d.2 0 ≠ d.2 2),
        members := ms.map fun m =>
          (m.id, ⟨ori.conj.rot (m.st.pos - pos), ori.conj.mul m.st.ori⟩) }
  else .ub

/-- `Clump::updateProperties`, Clump.cpp 88-238. -/
noncomputable def updateProperties (disc : Nat) (solver : M3 → M3 × V3) (c : State) (asph : Bool) :
    List Member → Res Props
  | [] => .throws
  | [m] => .ok
    { st := { c with pos := m.st.pos, ori := m.st.ori, inertia := m.st.inertia, mass := m.st.mass,
                     vel := 0, angVel := 0 },
      aspherical := asph, members := [(m.id, ⟨0, Quat.one⟩)] }
  | ms => assemble disc solver c ms

end Verif.Mech
