import Verif.Base
import Mathlib.Data.Rat.Floor
import Mathlib.Algebra.BigOperators.Group.List.Basic

/-!
# Choosing the spheres which `O.bodies.replaceByClumps` replaces

Transcription of /repo/py/wrapper/yadeWrapper.cpp lines 220–364 as far as the choice of the spheres
goes: the checks of the amounts, the list of standalone spheres, the number to replace per template,
the loop choosing them, their removal from the list, and the loop which takes every chosen sphere.

Simplifications: amounts are rationals (the code: doubles); the geometry of the templates, the new
member spheres and their clump (lines 318–361) are left out — what is recorded per template is which
spheres are erased (line 360).  A body is any value `β`.
-/

namespace Verif.Replace
open Verif

variable {β : Type}

/-- Largest `int`. -/
def maxInt : Nat := 2147483647

/-- `round(num*amounts[ii])`, line 297: half away from zero, for non-negative arguments. -/
def numReplace (num : Nat) (amount : ℚ) : Nat := ⌊(num : ℚ) * amount + 1 / 2⌋.toNat

/-- State of the choosing loop, lines 298–300: `bpListTmp`, `a`, `c`, `posTmp`. -/
structure Pick (β : Type) where
  bp : List (Option β)
  a : Nat
  c : Nat
  pos : List Nat
deriving DecidableEq

/-- Body of the choosing loop for one sphere, lines 302–306.  `k` is `numSphereList`, `m` is
`numReplaceTmp`.  Undefined: the `int` product `a*numSphereList` overflows, division by zero, an
index beyond `bpListTmp`. -/
def pickOne (k m : Nat) (p : Pick β) (b : β) : Res (Pick β) :=
  if maxInt < p.a * k then .ub
  else if m = 0 then .ub
  else if p.c = p.a * k / m then
    if p.a < p.bp.length then
      .ok { bp := p.bp.set p.a (some b), a := p.a + 1, c := p.c + 1, pos := p.pos ++ [p.c] }
    else .ub
  else .ok { p with c := p.c + 1 }

/-- The choosing loop over `sphereList`, line 301. -/
def pickLoop (k m : Nat) : Pick β → List β → Res (Pick β)
  | p, [] => .ok p
  | p, b :: bs =>
    match pickOne k m p b with
    | .ok p' => pickLoop k m p' bs
    | .throws => .throws
    | .ub => .ub

/-- Lines 308–309: `sphereList.erase(sphereList.begin()+posTmp[jj]-jj)` for `jj = 0, 1, …`; erasing at
or beyond the end is undefined. -/
def eraseLoop : List β → List Nat → Nat → Res (List β)
  | l, [], _ => .ok l
  | l, p :: ps, jj => if p < jj then .ub else
      if p - jj < l.length then eraseLoop (l.eraseIdx (p - jj)) ps (jj + 1) else .ub

/-- Lines 314–361: every entry of `bpListTmp` is dereferenced (line 316) and erased (line 360). -/
def takeAll : List (Option β) → Res (List β)
  | [] => .ok []
  | none :: _ => .ub
  | some b :: bs =>
    match takeAll bs with
    | .ok r => .ok (b :: r)
    | .throws => .throws
    | .ub => .ub

/-- One template, lines 296–361, for `num` spheres at the start: the spheres replaced, and the
remaining list.  `numSphereList` is the length of the list (line 251 and line 310). -/
def oneTemplate (num : Nat) (spheres : List β) (k : Nat) (amount : ℚ) :
    Res (List β × List β × Nat) :=
  let m := numReplace num amount
  match pickLoop k m ⟨List.replicate m none, 0, 0, []⟩ spheres with
  | .ok p =>
    match eraseLoop spheres (p.pos.take p.a) 0 with
    | .ok rest =>
      match takeAll p.bp with
      | .ok r => .ok (r, rest, k - p.a)
      | .throws => .throws
      | .ub => .ub
    | .throws => .throws
    | .ub => .ub
  | .throws => .throws
  | .ub => .ub

/-- The loop over the templates, lines 251–362. -/
def templates (num : Nat) : List β → Nat → List ℚ → Res (List (List β) × List β)
  | spheres, _, [] => .ok ([], spheres)
  | spheres, k, x :: xs =>
    match oneTemplate num spheres k x with
    | .ok (r, rest, k') =>
      match templates num rest k' xs with
      | .ok (rs, last) => .ok (r :: rs, last)
      | .throws => .throws
      | .ub => .ub
    | .throws => .throws
    | .ub => .ub

/-- `replaceByClumps`, lines 220–364: the checks (lines 222–237; `nTempl` is the length of the list of
templates), then the templates.  Gives per template the spheres replaced, and those left. -/
def replaceByClumps (spheres : List β) (nTempl : Nat) (amounts : List ℚ) :
    Res (List (List β) × List β) :=
  if amounts.any (fun x => x < 0) then .throws
  else if amounts.sum > 1 then .throws
  else if nTempl ≠ amounts.length then .throws
  else templates spheres.length spheres spheres.length amounts

end Verif.Replace
