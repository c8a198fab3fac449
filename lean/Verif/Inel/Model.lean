import Verif.Mech.Contact

/-!
# Inelastic cohesive contacts

`pkg/dem/InelastCohFrictPM.cpp` and `.hpp`.  Real numbers instead of floating point; a division by zero is `ub`.  Twist
angle and relative angular velocity, which the geometry computes, are inputs.
-/
namespace Verif.Inel
open Verif Verif.Mech

/-- `InelastCohFrictMat`, InelastCohFrictPM.hpp 22-46. -/
structure Mat where
  frictionAngle : ℝ
  tensionModulus : ℝ
  compressionModulus : ℝ
  shearModulus : ℝ
  alphaKr : ℝ
  alphaKtw : ℝ
  nuBending : ℝ
  nuTwist : ℝ
  sigmaTension : ℝ
  sigmaCompression : ℝ
  shearCohesion : ℝ
  creepTension : ℝ
  creepBending : ℝ
  creepTwist : ℝ
  unloadTension : ℝ
  unloadBending : ℝ
  unloadTwist : ℝ
  epsMaxTension : ℝ
  epsMaxCompression : ℝ
  etaMaxBending : ℝ
  etaMaxTwist : ℝ

/-- The attributes of `InelastCohFrictPhys` that the law does not change, InelastCohFrictPM.hpp 59-109.  `kn` is the one of `NormPhys`, NormShearPhys.hpp 12.
-/
structure Par where
  tan : ℝ
  kn : ℝ
  knC : ℝ
  knT : ℝ
  ks : ℝ
  kr : ℝ
  ktw : ℝ
  kTCrp : ℝ
  kRCrp : ℝ
  kTwCrp : ℝ
  kRUnld : ℝ
  kTUnld : ℝ
  kTwUnld : ℝ
  maxElB : ℝ
  maxExten : ℝ
  maxContract : ℝ
  maxBendMom : ℝ
  maxTwist : ℝ

/-- Those it changes, InelastCohFrictPM.hpp 59-109; `cT`, `cC`, `cTw`, `cB` are `maxCrpRchdT` and so on. -/
structure St where
  cohBroken : Bool
  isBroken : Bool
  unp : ℝ
  twp : ℝ
  onB : Bool
  onTw : Bool
  onT : Bool
  onC : Bool
  maxElT : ℝ
  maxElC : ℝ
  maxElTw : ℝ
  adh : ℝ
  cT : ℝ × ℝ
  cC : ℝ × ℝ
  cTw : ℝ × ℝ
  cB : V3
  mTw : V3
  mB : V3
  creep : V3
  kDam : ℝ
  Fn : V3
  Fs : V3

/-- `2ab/(a+b)`, InelastCohFrictPM.cpp 30-36. -/
noncomputable def harm (a b : ℝ) : Res ℝ := open Classical in if a + b = 0 then .ub else .ok (2 * a * b / (a + b))

/-- `Ip2_2xInelastCohFrictMat_InelastCohFrictPhys::go` for an interaction without physics, InelastCohFrictPM.cpp 17-62; the other
attributes have their defaults, InelastCohFrictPM.hpp 59-109. -/
noncomputable def ip2 (m1 m2 : Mat) (r1 r2 : ℝ) : Res (Par × St) := do
  let knC ← harm (m1.compressionModulus * r1) (m2.compressionModulus * r2)
  let knT ← harm (m1.tensionModulus * r1) (m2.tensionModulus * r2)
  let ks ← harm (m1.shearModulus * r1) (m2.shearModulus * r2)
  let aR ← harm m1.alphaKr m2.alphaKr
  let aT ← harm m1.alphaKtw m2.alphaKtw
  let kr := r1 * r2 * ks * aR
  let ktw := r1 * r2 * ks * aT
  return (
    { tan := Real.tan (min m1.frictionAngle m2.frictionAngle), kn := 0, knC := knC, knT := knT, ks := ks, kr := kr, ktw := ktw
      kTCrp := knT * min m1.creepTension m2.creepTension
      kRCrp := kr * min m1.creepBending m2.creepBending
      kTwCrp := ktw * min m1.creepTwist m2.creepTwist
      kRUnld := kr * min m1.unloadBending m2.unloadBending
      kTUnld := knT * min m1.unloadTension m2.unloadTension
      kTwUnld := ktw * min m1.unloadTwist m2.unloadTwist
      maxElB := min m1.nuBending m2.nuBending * (min r2 r1) ^ 3
      maxExten := min (m1.epsMaxTension * r1) (m2.epsMaxTension * r2)
      maxContract := min (m1.epsMaxCompression * r1) (m2.epsMaxCompression * r2)
      maxBendMom := min m1.etaMaxBending m2.etaMaxBending * (min r2 r1) ^ 3
      maxTwist := 2 * 3.14159265 * min m1.etaMaxTwist m2.etaMaxTwist },
    { cohBroken := false, isBroken := false, unp := 0, twp := 0, onB := false, onTw := false, onT := false, onC := false
      maxElT := min m1.sigmaTension m2.sigmaTension * (min r2 r1) ^ 2
      maxElC := min m1.sigmaCompression m2.sigmaCompression * (min r2 r1) ^ 2
      maxElTw := min m1.nuTwist m2.nuTwist * (min r2 r1) ^ 3
      adh := min m1.shearCohesion m2.shearCohesion * (min r1 r2) ^ 2
      cT := (0, 0), cC := (0, 0), cTw := (0, 0), cB := 0, mTw := 0, mB := 0, creep := 0, kDam := 0, Fn := 0, Fs := 0 })

/-- Result of the part along the normal: failure with the value returned by the law, or the normal force. -/
inductive NOut where
  | fail (keep : Bool) (s : St)
  | force (Fn : ℝ) (s : St)

/-- What a failed contact is left with, InelastCohFrictPM.cpp 113-114 and 143-144. -/
def St.failed (s : St) : St := { s with isBroken := true, Fn := 0, Fs := 0, mTw := 0, mB := 0 }

/-- Tension, InelastCohFrictPM.cpp 111-139; `pd` is the penetration depth. -/
noncomputable def tension (P : Par) (s : St) (pd un : ℝ) : Res NOut :=
  if -un > P.maxExten ∨ s.isBroken = true then .ok (.fail false s.failed)
  else if -(P.knT * un) > s.maxElT ∨ s.onT = true then
    let s := { s with onT := true, onC := true }
    let r : Res (ℝ × St) :=
      if s.cT.1 < un then .ok (P.kTUnld * (un - s.cT.1) + s.cT.2, s)
      else
        open Classical in
        if P.knT = 0 then .ub
        else
          let F := -s.maxElT + P.kTCrp * (un + s.maxElT / P.knT)
          .ok (F, { s with cT := (un, F) })
    r.bind fun x =>
      .ok (.force x.1 (if x.1 > 0 then { x.2 with unp := pd, cT := (10 ^ 20, x.2.cT.2), maxElT := 0 } else x.2))
  else .ok (.force (P.knT * un) { s with cT := (un, P.knT * un) })

/-- Compression, InelastCohFrictPM.cpp 141-171. -/
noncomputable def compression (P : Par) (s : St) (pd un : ℝ) : Res NOut :=
  if un > P.maxContract ∨ s.isBroken = true then .ok (.fail (decide (¬ pd ≤ 0)) s.failed)
  else if P.knC * un > s.maxElC ∨ s.onC = true then
    let s := { s with onC := true }
    let r : Res (ℝ × St) :=
      if s.cC.1 > un then .ok (P.kTUnld * (un - s.cC.1) + s.cC.2, s)
      else
        open Classical in
        if P.knC = 0 then .ub
        else
          let F := s.maxElC + P.kTCrp * (un - s.maxElC / P.knC)
          .ok (F, { s with cC := (un, F) })
    r.bind fun x =>
      .ok (.force x.1 (if x.1 < 0 then { x.2 with unp := pd, cC := (-10 ^ 20, x.2.cC.2), maxElC := 0 } else x.2))
  else .ok (.force (P.knC * un) { s with cC := (un, P.knC * un) })

/-- The part along the normal, InelastCohFrictPM.cpp 104-171. -/
noncomputable def normal (P : Par) (s : St) (pd : ℝ) : Res NOut :=
  if pd - s.unp ≤ 0 then tension P s pd (pd - s.unp) else compression P s pd (pd - s.unp)

/-- Shear, InelastCohFrictPM.cpp 173-191 and 265. -/
noncomputable def shear (P : Par) (s : St) (g : ScGeom) (Fn : ℝ) : St :=
  let F := g.rotate s.Fs + P.ks • g.shearInc
  open Classical in
  let m := max 0 (if s.adh = 0 then Fn * P.tan else s.adh)
  if norm3 F > m then
    if s.cohBroken = false then
      { s with cohBroken := true, adh := 0, Fs := (max 0 (Fn * P.tan) / norm3 F) • F }
    else { s with Fs := (m / norm3 F) • F }
  else { s with Fs := F }

/-- Twist, InelastCohFrictPM.cpp 194-229; `tw` is the twist angle of the geometry. -/
noncomputable def twist (P : Par) (s : St) (g : ScGeom) (tw : ℝ) (fresh : Bool) : Res St :=
  if s.cohBroken = false then
    let a := tw - s.twp
    let changed : Prop := fresh = false ∧ dot s.mTw ((a * P.ktw) • g.normal) < 0
    if |a| > P.maxTwist then .ok { s with cohBroken := true, mTw := (0 : ℝ) • g.normal }
    else if |a * P.ktw| > s.maxElTw ∨ s.onTw = true then
      let s := { s with onTw := true }
      let r : Res (ℝ × St) :=
        if |s.cTw.1| > |a| then .ok (P.kTwUnld * (a - s.cTw.1) + s.cTw.2, s)
        else
          open Classical in
          if P.ktw = 0 then .ub
          else
            let sg : ℝ := if a < 0 then -1 else 1
            let M := sg * s.maxElTw + P.kTwCrp * (a - sg * s.maxElTw / P.ktw)
            .ok (M, { s with cTw := (a, M) })
      r.bind fun x =>
        open Classical in
        let s := if changed then { x.2 with maxElTw := 0, twp := tw, cTw := (0, x.2.cTw.2) } else x.2
        .ok { s with mTw := x.1 • g.normal }
    else .ok { s with cTw := (a, a * P.ktw), mTw := (a * P.ktw) • g.normal }
  else .ok { s with mTw := 0 }

/-- Bending, InelastCohFrictPM.cpp 231-264; `w` is the relative angular velocity.  `rotate` changes the stored moment too. -/
noncomputable def bending (P : Par) (s : St) (g : ScGeom) (w : V3) (dt : ℝ) : Res St :=
  if s.cohBroken = false then
    let rot := dt • (w - dot g.normal w • g.normal)
    let b := g.rotate s.mB
    let s := { s with mB := b, creep := g.rotate s.creep }
    let el := b - P.kr • rot
    if norm3 el > P.maxElB ∨ s.onB = true then
      let s := { s with onB := true }
      let trial := b - s.kDam • rot
      if norm3 trial < norm3 s.mB then
        let np := s.creep - P.kRCrp • rot
        let cr := if norm3 np < norm3 s.creep then np else s.creep + P.kRCrp • rot
        open Classical in
        if P.maxBendMom - P.maxElB = 0 then .ub
        else .ok { s with
          mB := trial + s.kDam • rot - P.kRUnld • rot, creep := cr
          kDam := P.kr + (P.kRCrp - P.kr) * (norm3 s.cB - P.maxElB) / (P.maxBendMom - P.maxElB) }
      else
        let np := s.creep - P.kRCrp • rot
        let cr := if norm3 np > norm3 s.creep then np else s.creep + P.kRCrp • rot
        let M := if norm3 cr < norm3 trial then cr else trial
        let mx := if norm3 cr > norm3 s.cB then cr else s.cB
        if norm3 cr > P.maxBendMom then .ok { s with creep := cr, cB := mx, cohBroken := true, mB := 0 }
        else .ok { s with creep := cr, cB := mx, mB := M }
    else .ok { s with creep := el, mB := el, cB := el, kDam := P.kRCrp }
  else .ok s

/-- What the law gets: geometry, twist angle, relative angular velocity, step, whether the contact is new, positions (of the image of
the second body). -/
structure In where
  g : ScGeom
  tw : ℝ
  w : V3
  dt : ℝ
  fresh : Bool
  x1 : V3
  x2 : V3

/-- What it does. -/
structure Out where
  keep : Bool
  st : St
  loads : Loads

/-- The loads, InelastCohFrictPM.cpp 267-269; `applyForceAtContactPoint` is Dispatching.hpp 63-66. -/
def loadsOf (i : In) (F m : V3) : Loads :=
  { f1 := F, t1 := cross (i.g.contactPoint - i.x1) F + -m, f2 := -F, t2 := -cross (i.g.contactPoint - i.x2) F + m }

/-- `Law2_ScGeom6D_InelastCohFrictPhys_CohesionMoment::go`, InelastCohFrictPM.cpp 94-271. -/
noncomputable def go (P : Par) (s : St) (i : In) : Res Out :=
  let s := if i.fresh then { s with Fs := 0 } else s
  (normal P s i.g.pd).bind fun
    | .fail keep s => .ok ⟨keep, s, Loads.zero⟩
    | .force Fn s =>
      (twist P (shear P s i.g Fn) i.g i.tw i.fresh).bind fun s =>
        (bending P s i.g i.w i.dt).bind fun s =>
          let s := { s with Fn := (-Fn) • i.g.normal }
          .ok ⟨true, s, loadsOf i (s.Fn + s.Fs) (s.mB + s.mTw)⟩

/-- Steps of a contact with the loads of each; it ends where the law returns false. -/
noncomputable def run (P : Par) : St → List In → Res (Option St × List Loads)
  | s, [] => .ok (some s, [])
  | s, i :: is => (go P s i).bind fun o =>
    if o.keep then (run P o.st is).bind fun r => .ok (r.1, o.loads :: r.2) else .ok (none, [o.loads])

/-- `normElastEnergy` of one contact, InelastCohFrictPM.cpp 74: with `kn`, neither `knT` nor `knC`. -/
noncomputable def normEnergy (P : Par) (s : St) : Res ℝ :=
  open Classical in if P.kn = 0 then .ub else .ok (1 / 2 * (sqNorm s.Fn / P.kn))

end Verif.Inel
