import Verif.Base
import Mathlib.Algebra.Order.Field.Basic
import Mathlib.Algebra.Order.Floor.Ring

/-!
# Time tables, lib/smoothing/LinearInterpolate.hpp and Shop::periodicWrap

Times and values are elements of an ordered field; `none` stands for NaN, which the code gets from
`0/0` and hands on.  Rounding is not modelled.  The assertions in lines 21 and 26 of
LinearInterpolate.hpp are compiled out of a release build.
-/
namespace Verif.Drive

variable {K : Type} [Field K] [LinearOrder K]

/-- `tt.size()-2` in `size_t` (64 bits), LinearInterpolate.hpp 23-24. -/
def sizeMinus2 (n : Nat) : Nat := if 2 ≤ n then n - 2 else 2 ^ 64 - 2 + n

/-- `v[i]` on a `std::vector`, LinearInterpolate.hpp 22-30: undefined past the end. -/
def at' (v : List K) (i : Nat) : Res K :=
  match v[i]? with
  | some x => .ok x
  | none => .ub

/-- The loop in LinearInterpolate.hpp 25-29 with a bound on the number of turns; running out of
turns counts as `throws` (it stands for a loop that has not ended).  Comparisons with NaN are false;
decrementing `pos` below zero gives the largest `size_t`, an index past the end. -/
def search (t : Option K) (tt : List K) : Nat → Nat → Res Nat
  | 0, _ => .throws
  | n + 1, pos =>
    (at' tt pos).bind fun a =>
      if (∃ x ∈ t, x < a) then (if pos = 0 then .ub else search t tt n (pos - 1))
      else (at' tt (pos + 1)).bind fun b =>
        if (∃ x ∈ t, b < x) then search t tt n (pos + 1) else .ok pos

/-- The last line, LinearInterpolate.hpp 30-31.  In a degenerate interval (`t0=t1`) the search ends
only at `t=t0`, so the division is `0/0`. -/
def between (t : Option K) (t0 t1 v0 v1 : K) : Option K :=
  match t with
  | none => none
  | some x => if t1 - t0 = 0 then none else some (v0 + (v1 - v0) * ((x - t0) / (t1 - t0)))

/-- `linearInterpolate`, LinearInterpolate.hpp 20-32: the value and the new `pos`.  `tt[0]` and
`*tt.rbegin()` of an empty vector are undefined. -/
def interp (t : Option K) (tt values : List K) (pos : Nat) : Res (Option K × Nat) :=
  (at' tt 0).bind fun first =>
    if (∃ x ∈ t, x ≤ first) then (at' values 0).bind fun v => .ok (some v, 0)
    else (at' tt (tt.length - 1)).bind fun last =>
      if (∃ x ∈ t, last ≤ x) then
        (at' values (values.length - 1)).bind fun v => .ok (some v, sizeMinus2 tt.length)
      else
        (search t tt (tt.length + 1) (min pos (sizeMinus2 tt.length))).bind fun p =>
          (at' tt p).bind fun t0 => (at' tt (p + 1)).bind fun t1 =>
            (at' values p).bind fun v0 => (at' values (p + 1)).bind fun v1 =>
              .ok (between t t0 t1 v0 v1, p)

/-- `Shop::periodicWrap`, pkg/dem/Shop_02.cpp 154-159: division by zero gives NaN or an infinity,
and `floor` and the subtraction of either give NaN. -/
def periodicWrap [FloorRing K] (x x0 x1 : K) : Option K :=
  if x1 - x0 = 0 then none
  else
    let xNorm := (x - x0) / (x1 - x0)
    some (x0 + (xNorm - (⌊xNorm⌋ : K)) * (x1 - x0))

/-- A reading of the table as the engines do it, KinematicEngines.cpp 88-89 and ForceEngine.cpp
27-29: `*times.begin()` and `*times.rbegin()` of an empty vector are undefined. -/
def reading [FloorRing K] (wrap : Bool) (time : K) (tt values : List K) (pos : Nat) :
    Res (Option K × Nat) :=
  if wrap then
    (at' tt 0).bind fun a => (at' tt (tt.length - 1)).bind fun b =>
      interp (periodicWrap time a b) tt values pos
  else interp (some time) tt values pos

/-- Readings one after another, with the position handed on (`_pos`, KinematicEngines.hpp 81,
ForceEngine.hpp 27). -/
def readings [FloorRing K] (wrap : Bool) (tt values : List K) : List K → Nat → Res (List (Option K) × Nat)
  | [], pos => .ok ([], pos)
  | t :: ts, pos =>
    (reading wrap t tt values pos).bind fun r =>
      (readings wrap tt values ts r.2).bind fun rs => .ok (r.1 :: rs.1, rs.2)

end Verif.Drive
