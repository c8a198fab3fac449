import Verif.Base
import Verif.Mech.Vec
import Mathlib.Analysis.SpecialFunctions.Trigonometric.Arctan

/-!
# Wires

`pkg/dem/WirePM.{hpp,cpp}`: the material, the parameters of a link, and the law.  Real numbers; a division by zero, whose result is infinite or not a number, is the outcome
`ub`, as is reading beyond the end of a vector.  Links are between spheres whose states are of the type of the material.
-/
namespace Verif.Wire

open Verif.Mech

/-- Points of curves, `Vector2r` of WirePM.hpp 60-61. -/
abbrev Pt := ℝ × ℝ

/-- `WireMat`, WirePM.hpp 46-73; `poisson` is that of `FrictMat`. -/
structure Mat where
  id : ℤ
  diameter : ℝ
  type : ℕ
  ss : List Pt
  ssDT : List Pt
  isDT : Bool
  lambdaEps : ℝ
  lambdak : ℝ
  seed : ℤ
  lambdau : ℝ
  lambdaF : ℝ
  poisson : ℝ
  area : ℝ

/-- The check of the curve for double twists, WirePM.cpp 51-57 and 63-69; the last condition is what is written there. -/
noncomputable def checkDT (m : Mat) : Res Mat :=
  if m.ssDT.length < 2 then .throws
  else if (m.ssDT.headD 0).1 = 0 ∧ (m.ssDT.headD 0).2 ≠ 0 then .throws
  else .ok m

/-- WirePM.cpp 43-75: checks by type. -/
noncomputable def checkType (m : Mat) : Res Mat :=
  if m.type = 0 then (if m.ssDT = [] then .ok m else .throws)
  else if m.type = 1 ∨ m.type = 2 then (if m.isDT then checkDT m else .ok m)
  else .throws

/-- The area of the section, WirePM.cpp 33. -/
noncomputable def Mat.section (m : Mat) : Mat := { m with area := (m.diameter * (1 / 2)) ^ 2 * Real.pi }

/-- `WireMat::postLoad`, WirePM.cpp 27-77. -/
noncomputable def Mat.postLoad (m : Mat) : Res Mat :=
  if m.ss = [] then .ok m.section
  else if m.ss.length < 2 then .throws
  else if (m.ss.headD 0).1 = 0 ∧ (m.ss.headD 0).2 = 0 then .throws
  else checkType m.section

/-- Attributes set from Python: all at construction; then one by one, of which only the curves call `postLoad`, WirePM.hpp 53-71. -/
inductive Set where
  | diameter (x : ℝ)
  | type (n : ℕ)
  | ss (l : List Pt)
  | ssDT (l : List Pt)
  | isDT (b : Bool)

/-- An assignment, WirePM.hpp 53-62. -/
noncomputable def Mat.set (m : Mat) : Set → Res Mat
  | .diameter x => .ok { m with diameter := x }
  | .type n => .ok { m with type := n }
  | .ss l => Mat.postLoad { m with ss := l }
  | .ssDT l => Mat.postLoad { m with ssDT := l }
  | .isDT b => .ok { m with isDT := b }

/-! ## Parameters of links -/

/-- `WirePhys`, WirePM.hpp 77-96: `pts` are `displForceValues`, `ks` are `stiffnessValues`. -/
structure Phys where
  initD : ℝ
  linked : Bool
  twist : Bool
  pts : List Pt
  ks : List ℝ
  kn : ℝ
  plastD : ℝ
  limit : ℝ
  dL : ℝ

/-- A quotient, undefined if the divisor is zero; WirePM.cpp 277, 286, 307, 325. -/
noncomputable def quot (a b : ℝ) : Res ℝ := if b = 0 then .ub else .ok (a / b)

/-- The two random generators, which are `static`: seed and how many numbers were taken, WirePM.cpp 239-241 and 253-255. -/
structure Rng where
  g1 : Option (ℤ × ℕ)
  g2 : Option (ℤ × ℕ)

/-- The seed a generator begins with, WirePM.cpp 239. -/
def seedOf (now : ℤ) (m : Mat) : ℤ := if m.seed ≠ 0 then m.seed else now

/-- A generator at its next number, WirePM.cpp 239-241: the seed matters only at the first call. -/
def next (now : ℤ) (m : Mat) (g : Option (ℤ × ℕ)) : ℤ × ℕ := ((g.getD (seedOf now m, 0)).1, (g.getD (seedOf now m, 0)).2 + 1)

/-- The shift for a material of type 2, WirePM.cpp 235-245 and 249-258; `R` gives the n-th random number of a seed. -/
noncomputable def shiftBy (R : ℤ → ℕ → ℝ) (now : ℤ) (m : Mat) (l0 : ℝ) (g : Option (ℤ × ℕ)) : ℝ × Option (ℤ × ℕ) :=
  if m.seed = -1 then (l0 * m.lambdau, g)
  else (l0 * m.lambdau * R (next now m g).1 (next now m g).2, some (next now m g))

/-- WirePM.cpp 229-259. -/
noncomputable def shift (R : ℤ → ℕ → ℝ) (now : ℤ) (m1 m2 : Mat) (l0 : ℝ) (g : Rng) : ℝ × Rng :=
  if m1.type = 2 then ((shiftBy R now m1 l0 g.g1).1, { g with g1 := (shiftBy R now m1 l0 g.g1).2 })
  else if m2.type = 2 then ((shiftBy R now m2 l0 g.g2).1, { g with g2 := (shiftBy R now m2 l0 g.g2).2 })
  else (0, g)

/-- Section, curve, and whether there is a double twist. -/
structure Choice where
  area : ℝ
  ss : List Pt
  twist : Bool

/-- WirePM.cpp 194-219. -/
noncomputable def choose (id1 id2 : ℤ) (m1 m2 : Mat) : Choice :=
  if m1.id = m2.id then
    if m1.isDT ∧ |id1 - id2| = 1 then
      if m1.type = 1 ∨ m1.type = 2 then { area := m1.area * 2, ss := m1.ssDT, twist := true } else { area := m1.area, ss := m1.ss, twist := true }
    else { area := m1.area, ss := m1.ss, twist := false }
  else if m1.diameter ≤ m2.diameter then { area := m1.area, ss := m1.ss, twist := false }
  else { area := m2.area, ss := m2.ss, twist := false }

/-- Displacement and force of a point, WirePM.cpp 271-272; `l` is the length with the shift. -/
def dfPoint (l dl area : ℝ) (p : Pt) : Pt := (-p.1 * l - dl, -p.2 * area)

/-- `kh`, WirePM.cpp 282-283. -/
noncomputable def khOf (m : Mat) (l area k : ℝ) : ℝ :=
  k * (l * m.diameter / area) /
    (48 * Real.cos (Real.arctan (l / (3 * Real.pi * m.diameter))) * (41 / 9 * (1 + m.poisson) + 17 / 4 * Real.tan (Real.arctan (l / (3 * Real.pi * m.diameter))) ^ 2))

/-- Stiffness of a double twist of type 0, WirePM.cpp 284. -/
noncomputable def kTwist (m : Mat) (l area k : ℝ) : ℝ := 2 * (m.lambdak * khOf m l area k + (1 - m.lambdak) * k)

/-- WirePM.cpp 285-291: the curve of a double twist of type 0, of elastic stiffness `k`. -/
noncomputable def twistPts (m : Mat) (k : ℝ) : List Pt → List Pt
  | [] => []
  | p :: ps => (p.1, k * p.1) :: ps.map fun q => (q.1 * m.lambdaEps, q.2 * (k * p.1 / p.2))

/-- The additional point of type 2, WirePM.cpp 304-306. -/
def extra (m : Mat) (dl : ℝ) (p : Pt) : Pt := (-dl + m.lambdaF * (p.1 + dl), p.2 * m.lambdaF)

/-- WirePM.cpp 303-310 and 311-318: first stiffness and points. -/
noncomputable def withExtra (m : Mat) (dl : ℝ) (p : Pt) (ps : List Pt) : Res (ℝ × List Pt) :=
  (quot (extra m dl p).2 (extra m dl p).1).bind fun k => .ok (k, if m.lambdaF < 1 then extra m dl p :: p :: ps else p :: ps)

/-- WirePM.cpp 302-318. -/
noncomputable def firstPart (m1 m2 : Mat) (dl k : ℝ) (p : Pt) (ps : List Pt) : Res (ℝ × List Pt) :=
  if m1.type = 2 then withExtra m1 dl p ps else if m2.type = 2 then withExtra m2 dl p ps else .ok (k, p :: ps)

/-- Stiffness of the parts after the first, WirePM.cpp 322-327. -/
noncomputable def slopes : List Pt → Res (List ℝ)
  | p :: q :: ps => (quot (-q.2 + p.2) (-q.1 + p.1)).bind fun k => (slopes (q :: ps)).bind fun ks => .ok (k :: ks)
  | _ => .ok []

/-- WirePM.cpp 279-295: elastic stiffness and points. -/
noncomputable def elastic (m1 : Mat) (c : Choice) (l k : ℝ) (ps : List Pt) : ℝ × List Pt :=
  if c.twist = true ∧ m1.type = 0 then (kTwist m1 l c.area k, twistPts m1 (kTwist m1 l c.area k) ps) else (k, ps)

/-- WirePM.cpp 297-342: the rest, from elastic stiffness and points. -/
noncomputable def finish (m1 m2 : Mat) (c : Choice) (dl initD : ℝ) (linked : Bool) (e : ℝ × List Pt) : Res Phys :=
  match e.2 with
  | [] => .ub
  | p :: ps =>
    (firstPart m1 m2 dl e.1 p ps).bind fun f => (slopes f.2).bind fun ks =>
      .ok { initD := initD, linked := linked, twist := c.twist, pts := 0 :: f.2, ks := f.1 :: ks, kn := e.1, plastD := 0, limit := 0, dL := dl }

/-- WirePM.cpp 267-342: a link of length `l0` before the shift `dl`. -/
noncomputable def build (m1 m2 : Mat) (c : Choice) (l0 dl initD : ℝ) (linked : Bool) : Res Phys :=
  match c.ss.map (dfPoint (l0 + dl) dl c.area) with
  | [] => .ub
  | p :: ps => (quot p.2 (p.1 + dl)).bind fun k => finish m1 m2 c dl initD linked (elastic m1 c (l0 + dl) k (p :: ps))

/-- `Ip2_WireMat_WireMat_WirePhys::go` of a new interaction, WirePM.cpp 171-344: `depth` is `penetrationDepth`, `linked` tells `scene->iter < linkThresholdIteration`. -/
noncomputable def ip2 (R : ℤ → ℕ → ℝ) (now : ℤ) (g : Rng) (linked : Bool) (id1 id2 : ℤ) (r1 r2 depth : ℝ) (m1 m2 : Mat) : Res (Phys × Rng) :=
  (build m1 m2 (choose id1 id2 m1 m2) (r1 + r2 - depth) (shift R now m1 m2 (r1 + r2 - depth) g).1 depth linked).bind fun p => .ok (p, (shift R now m1 m2 (r1 + r2 - depth) g).2)

/-! ## The law -/

/-- WirePM.cpp 124-134: the force in loading, `none` if no part is found. -/
noncomputable def load (D : ℝ) : Pt → List Pt → List ℝ → Res (Option ℝ)
  | _, [], _ => .ok none
  | p, q :: qs, ks =>
    if q.1 < D then
      match ks with
      | k :: _ => .ok (some (p.2 + (D - p.1) * k))
      | [] => .ub
    else load D q qs ks.tail

/-- What the law does: the link was broken before, breaks, or has the normal force `f`. -/
inductive Out where
  | gone
  | breaks
  | force (f : ℝ)

/-- Compression is cut off and the limit factor set, WirePM.cpp 137-147. -/
noncomputable def Phys.keep (p : Phys) (D last Fn : ℝ) : Phys × Out :=
  ({ p with limit := if min Fn 0 < 0 then |D / last| else 0 }, .force (min Fn 0))

/-- Loading along the curve, WirePM.cpp 122-134. -/
noncomputable def Phys.loading (p : Phys) (D last : ℝ) (p0 : Pt) (ps : List Pt) : Res (Phys × Out) :=
  (load D p0 ps p.ks).bind fun o =>
    match o with
    | some f => (quot f p.kn).bind fun x => .ok (Phys.keep { p with pts := (D, f) :: ps, plastD := D - x } D last f)
    | none => .ok (p.keep D last 0)

/-- `Law2_ScGeom_WirePhys_WirePM::go`, WirePM.cpp 83-147 and 162-164. -/
noncomputable def Phys.law (p : Phys) (depth : ℝ) : Res (Phys × Out) :=
  if p.linked = false then .ok (p, .gone)
  else
    match p.pts with
    | [] => .ub
    | p0 :: ps =>
      if depth - p.initD < (ps.getLastD p0).1 then .ok ({ p with linked := false }, .breaks)
      else if p0.1 < depth - p.initD then .ok (p.keep (depth - p.initD) (ps.getLastD p0).1 (p.kn * (depth - p.initD - p.plastD)))
      else p.loading (depth - p.initD) (ps.getLastD p0).1 p0 ps

/-- Loads on both bodies. -/
structure Loads where
  f1 : V3
  t1 : V3
  f2 : V3
  t2 : V3

/-- WirePM.cpp 142 and 152-160 with Dispatching.hpp 63-66. -/
noncomputable def loads (periodic : Bool) (Fn : ℝ) (normal contactPoint pos1 pos2 : V3) : Loads :=
  if periodic then { f1 := -(Fn • normal), t1 := 0, f2 := Fn • normal, t2 := 0 }
  else { f1 := -(Fn • normal), t1 := -cross (contactPoint - pos1) (Fn • normal), f2 := Fn • normal, t2 := cross (contactPoint - pos2) (Fn • normal) }

/-! ## Links in the course of a simulation -/

/-- A pair of bodies: the iteration, the link, and how often `numBrokenLinks` of both was increased for it. -/
structure Link where
  iter : ℕ
  phys : Option Phys
  broken : ℕ

/-- Parameters: those of the link, or new ones made by `mk` for the depth (`ip2`), WirePM.cpp 174 and 336-340. -/
def Link.parts (mk : ℝ → Bool → Res Phys) (threshold : ℕ) (s : Link) (depth : ℝ) : Res Phys :=
  match s.phys with
  | some p => .ok p
  | none => mk depth (decide (s.iter < threshold))

/-- What is left after the law, WirePM.cpp 101-113; an interaction the law gives up is erased, `pkg/common/InteractionLoop.cpp`. -/
def Link.after (s : Link) (r : Phys × Out) : Link × Out :=
  match r.2 with
  | .gone => ({ iter := s.iter + 1, phys := none, broken := s.broken }, .gone)
  | .breaks => ({ iter := s.iter + 1, phys := none, broken := s.broken + 1 }, .breaks)
  | .force f => ({ iter := s.iter + 1, phys := some r.1, broken := s.broken }, .force f)

/-- One step of a pair in contact or in reach, WirePM.cpp 83-164 and 171-344. -/
noncomputable def Link.step (mk : ℝ → Bool → Res Phys) (threshold : ℕ) (s : Link) (depth : ℝ) : Res (Link × Out) :=
  (s.parts mk threshold depth).bind fun p => (p.law depth).bind fun r => .ok (s.after r)

/-- Steps, each with the depth; results in order. -/
noncomputable def Link.run (mk : ℝ → Bool → Res Phys) (threshold : ℕ) : List ℝ → Link → Res (Link × List Out)
  | [], s => .ok (s, [])
  | d :: ds, s => (s.step mk threshold d).bind fun r => (Link.run mk threshold ds r.1).bind fun q => .ok (q.1, r.2 :: q.2)

end Verif.Wire
