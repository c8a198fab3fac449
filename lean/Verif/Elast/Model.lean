import Mathlib.Data.Real.Basic
import Mathlib.Tactic.Ring
import Mathlib.Tactic.FieldSimp
import Mathlib.Tactic.NormNum
import Mathlib.Tactic.Linarith
import Verif.Base

/-!
# Contacts of elastic materials

`pkg/dem/Ip2_ElastMat.cpp`.  Real numbers instead of floating point; a division by zero is `ub`.
-/
namespace Verif.Elast
open Verif

/-- What the two functions read of `ElastMat`, Ip2_ElastMat.cpp 42-45. -/
structure Mat where
  young : ℝ
  poisson : ℝ

/-- Stiffnesses of the contact, Ip2_ElastMat.cpp 61-62. -/
structure Phys where
  kn : ℝ
  ks : ℝ

/-- The radii used, Ip2_ElastMat.cpp 24-25 and 52-53: a radius that is not positive is replaced by that of the other body. -/
noncomputable def radii (r1 r2 : ℝ) : ℝ × ℝ := (if r1 > 0 then r1 else r2, if r2 > 0 then r2 else r1)

/-- A quotient. -/
noncomputable def quot (a b : ℝ) : Res ℝ := if b = 0 then .ub else .ok (a / b)

/-- `Ip2_ElastMat_ElastMat_NormPhys::go`, Ip2_ElastMat.cpp 9-32.  `old` is the stiffness of a contact that exists already and
`geom` gives the radii when the geometry has them. -/
noncomputable def normGo (m1 m2 : Mat) (geom : Option (ℝ × ℝ)) (old : Option ℝ) : Res ℝ :=
  match old with
  | some k => .ok k
  | none =>
    match geom with
    | some g =>
      let r := radii g.1 g.2
      quot (2 * m1.young * r.1 * m2.young * r.2) (m1.young * r.1 + m2.young * r.2)
    | none => quot (2 * m1.young * m2.young) (m1.young + m2.young)

/-- `Ip2_ElastMat_ElastMat_NormShearPhys::go`, Ip2_ElastMat.cpp 35-63.  Without radii the second line assigns `Kn` again, and
`Ks` keeps its initial value. -/
noncomputable def shearGo (m1 m2 : Mat) (geom : Option (ℝ × ℝ)) (old : Option Phys) : Res Phys :=
  match old with
  | some p => .ok p
  | none =>
    match geom with
    | some g =>
      let r := radii g.1 g.2
      (quot (2 * m1.young * r.1 * m2.young * r.2) (m1.young * r.1 + m2.young * r.2)).bind fun kn =>
      (quot (2 * m1.young * r.1 * m1.poisson * m2.young * r.2 * m2.poisson)
        (m1.young * r.1 * m1.poisson + m2.young * r.2 * m2.poisson)).bind fun ks =>
      .ok { kn := kn, ks := ks }
    | none =>
      (quot (2 * m1.young * m2.young) (m1.young + m2.young)).bind fun _ =>
      (quot (2 * m1.young * m1.poisson * m2.young * m2.poisson)
        (m1.young * m1.poisson + m2.young * m2.poisson)).bind fun kn =>
      .ok { kn := kn, ks := 0 }

end Verif.Elast
