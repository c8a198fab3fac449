import Verif.Cpm.Model

/-!
# `CpmStateUpdater`, pkg/dem/ConcretePM.cpp 568-636

Colours (line 628) are not modelled.
-/
namespace Verif.Cpm

open Verif.Mech

/-- A real interaction with `CpmPhys`, as the updater reads it, ConcretePM.cpp 577-600. -/
structure Link where
  id1 : ℕ
  id2 : ℕ
  n : V3
  Fn : ℝ
  Fs : V3
  refLen : ℝ
  cohesive : Bool
  resid : ℝ
  omega : ℝ

/-- `CpmStateUpdater::BodyStats`, ConcretePM.hpp 342. -/
structure Stats where
  nCoh : ℕ
  nLinks : ℕ
  dmgSum : ℝ
  stress : M3
  tensor : M3

/-- The constructor of `BodyStats`, ConcretePM.hpp 342. -/
def Stats.zero : Stats := ⟨0, 0, 0, 0, 0⟩

/-- Eigen `a*b.transpose()`. -/
def outer (a b : V3) : M3 := Matrix.of fun i j => a i * b j

/-- The stress of a link, ConcretePM.cpp 589. -/
noncomputable def Link.stress (l : Link) : M3 := l.refLen • (l.Fn • outer l.n l.n + (1 / 2 : ℝ) • (outer l.Fs l.n + outer l.n l.Fs))

/-- What is added to the damage tensors, ConcretePM.cpp 603-604. -/
noncomputable def Link.incr (l : Link) : M3 := (-(1 - l.resid) * (3 / 2)) • (1 : M3) + ((1 - l.resid) * (15 / 2)) • outer l.n l.n

/-- What a link adds to the statistics of one of its bodies, ConcretePM.cpp 591-608: the increment is added for each of the indices `i` and `j`, nine times. -/
noncomputable def Stats.add (s : Stats) (l : Link) : Stats :=
  let s := { s with stress := s.stress + l.stress, nLinks := s.nLinks + 1 }
  if l.cohesive then { s with nCoh := s.nCoh + 1, dmgSum := s.dmgSum + (1 - l.resid), tensor := (· + l.incr)^[9] s.tensor } else s

/-- The statistics, the sum and number of residual strengths, and the attribute `maxOmega`, which is NaN at first: `none`. -/
structure Tot where
  stats : ℕ → Stats
  sum : ℝ
  num : ℝ
  maxOm : Option ℝ

/-- `std::max(a,b)`, that is `a<b ? b : a`, with a NaN for the first one. -/
noncomputable def cmax (a : Option ℝ) (b : ℝ) : Option ℝ := a.map fun x => if x < b then b else x

/-- One turn of the first loop, ConcretePM.cpp 576-609. -/
noncomputable def addLink (t : Tot) (l : Link) : Tot :=
  let st := Function.update t.stats l.id1 ((t.stats l.id1).add l)
  let st := Function.update st l.id2 ((st l.id2).add l)
  if l.cohesive then { stats := st, sum := t.sum + l.resid, num := t.num + 1, maxOm := cmax t.maxOm l.omega } else { t with stats := st }

/-- A body: whether its state is a `CpmState`, the number of its broken contacts, and its radius if it is a sphere. -/
structure Bd where
  cpm : Bool
  broken : ℕ
  radius : Option ℝ

/-- What is set in a `CpmState`; the stress of a sphere without radius is undefined. -/
structure Out2 where
  normDmg : ℝ
  tensor : M3
  stress : Res M3

/-- The second loop for one body, ConcretePM.cpp 611-634. -/
noncomputable def bodyOut (s : Stats) (b : Bd) : Out2 :=
  let c := s.nCoh + b.broken
  { normDmg := if c > 0 then (s.dmgSum + b.broken) / c else 0
    tensor := if c > 0 then (1 / (c : ℝ)) • s.tensor else 0
    stress := match b.radius with
      | none => .ok s.stress
      | some r =>
        open Classical in
        if r = 0 then .ub else .ok ((1 / (4 / 3 * Real.pi * r * r * r / (62 / 100)) * (1 / 2)) • s.stress) }

/-- The result of the updater: the states of the bodies which have one, the average, NaN if there is nothing to average, and `maxOmega`. -/
structure Upd where
  states : List (Option Out2)
  avg : Option ℝ
  maxOm : Option ℝ

/-- `CpmStateUpdater::update`, ConcretePM.cpp 568-636; bodies are in the order of their identifiers, `none` for erased ones; identifiers out of range are undefined. -/
noncomputable def update (bs : List (Option Bd)) (ls : List Link) (maxOm : Option ℝ) : Res Upd :=
  open Classical in
  if ∃ l ∈ ls, bs.length ≤ l.id1 ∨ bs.length ≤ l.id2 then .ub
  else
    let t := ls.foldl addLink ⟨fun _ => Stats.zero, 0, 0, maxOm⟩
    let num := t.num + ((bs.filterMap id).filter (·.cpm)).foldl (fun x b => x + 1 / 2 * (b.broken : ℝ)) 0
    .ok
      { states := bs.mapIdx fun i b => b.bind fun b => if b.cpm then some (bodyOut (t.stats i) b) else none
        avg := if num = 0 then none else some (t.sum / num)
        maxOm := t.maxOm }

end Verif.Cpm
