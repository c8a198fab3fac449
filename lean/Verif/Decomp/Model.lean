import Mathlib.LinearAlgebra.Matrix.NonsingularInverse
import Mathlib.Algebra.Order.Floor.Semiring
import Verif.Base
import Verif.Mech.Vec

/-!
# Splitting a box into subdomains: py/domaindecomposition.py

Transcription of the classes `Globaldomain`, `Subdomain` and `GlobaldomainCloud`.  Numbers are real; `int` of
a number that is not negative is its floor.  The loop of `sideDecomposition` has no bound: it is given a
number of rounds and has no outcome if they do not suffice.  What is printed is not modelled.
-/
namespace Verif.Decomp
open Verif.Mech
open scoped Classical Matrix

/-- `Subdomain`, domaindecomposition.py 303-317: eight points and the number of the worker. -/
structure Sub where
  points : List V3
  worker : Nat

/-- `np.linspace(a,b,n)[i]`, domaindecomposition.py 148-150. -/
noncomputable def linspace (a b : ℝ) (n i : Nat) : ℝ := a + i * ((b - a) / ((n - 1 : Nat) : ℝ))

/-- The points of the grid, domaindecomposition.py 148-151: corners of the box and numbers of points. -/
structure Grid where
  mn : V3
  mx : V3
  n : Fin 3 → Nat

/-- `Point(self.x[i,j,k],self.y[i,j,k],self.z[i,j,k])`, domaindecomposition.py 151. -/
noncomputable def Grid.pt (g : Grid) (i j k : Nat) : V3 :=
  ![linspace (g.mn 0) (g.mx 0) (g.n 0) i, linspace (g.mn 1) (g.mx 1) (g.n 1) j, linspace (g.mn 2) (g.mx 2) (g.n 2) k]

/-- `makeOneSubdomain`, domaindecomposition.py 233-245. -/
noncomputable def makeOne (g : Grid) (i j k w : Nat) : Sub :=
  ⟨[g.pt i j k, g.pt (i + 1) j k, g.pt i (j + 1) k, g.pt (i + 1) (j + 1) k,
    g.pt i j (k + 1), g.pt (i + 1) j (k + 1), g.pt i (j + 1) (k + 1), g.pt (i + 1) (j + 1) (k + 1)], w⟩

/-- `xHalfpt2` and the like, domaindecomposition.py 249-252, with the other coordinates of the second point. -/
noncomputable def half (g : Grid) (i j k : Nat) : V3 :=
  ![g.pt i j k 0 + (g.pt (i + 1) j k 0 - g.pt i j k 0) / 2, g.pt (i + 1) j k 1, g.pt (i + 1) j k 2]

/-- The first half of `makeTwoSubdomains`, domaindecomposition.py 254-265. -/
noncomputable def makeFirst (g : Grid) (i j k w : Nat) : Sub :=
  ⟨[g.pt i j k, half g i j k, g.pt i (j + 1) k, half g i (j + 1) k,
    g.pt i j (k + 1), half g i j (k + 1), g.pt i (j + 1) (k + 1), half g i (j + 1) (k + 1)], w⟩

/-- The second half of `makeTwoSubdomains`, domaindecomposition.py 267-278. -/
noncomputable def makeSecond (g : Grid) (i j k w : Nat) : Sub :=
  ⟨[half g i j k, g.pt (i + 1) j k, half g i (j + 1) k, g.pt (i + 1) (j + 1) k,
    half g i j (k + 1), g.pt (i + 1) j (k + 1), half g i (j + 1) (k + 1), g.pt (i + 1) (j + 1) (k + 1)], w⟩

/-- The loops of `partitionSubdomains`, domaindecomposition.py 222-224. -/
def cells (nx ny nz : Nat) : List (Nat × Nat × Nat) :=
  (List.range nx).flatMap fun i => (List.range ny).flatMap fun j => (List.range nz).map fun k => (i, j, k)

/-- The body of the loops, domaindecomposition.py 225-228, with `unusedWorkers` and `workerDomain`. -/
noncomputable def partition (g : Grid) : Int → Nat → List (Nat × Nat × Nat) → List Sub
  | _, _, [] => []
  | unused, w, (i, j, k) :: t =>
    if unused > 0 then makeFirst g i j k (w + 1) :: makeSecond g i j k (w + 2) :: partition g (unused - 1) (w + 2) t
    else makeOne g i j k (w + 1) :: partition g unused (w + 1) t

/-- `partitionSubdomains`, domaindecomposition.py 218-230. -/
noncomputable def partitionSubdomains (g : Grid) (unused : Int) : List Sub :=
  partition g unused 0 (cells (g.n 0 - 1) (g.n 1 - 1) (g.n 2 - 1))

/-! ## The number of parts -/

/-- `m`, domaindecomposition.py 164-169, before the reciprocal; a singular matrix has no inverse. -/
noncomputable def leastSquares (x y z : ℝ) : Option V3 :=
  let G : M3 := !![x, y, 0; x, 0, z; 0, y, z]
  let b : V3 := fun _ => 0.01 * 1
  if (Gᵀ * G).det = 0 then none else some (((Gᵀ * G)⁻¹ * Gᵀ).mulVec b)

/-- `idxOfSmallestPositiveNumber`, domaindecomposition.py 209-216, as written: what is compared is the index. -/
def idxOfSmallest (l : List Int) : Nat :=
  (l.zipIdx.foldl (fun (smallest, idx) (j, i) => if (i : Int) < smallest ∧ 0 < i then (j, i) else (smallest, idx)) ((1000 : Int), 1000)).2

/-- `xDecomp`, `yDecomp`, `zDecomp`, domaindecomposition.py 171-173. -/
structure Parts where
  x : ℝ
  y : ℝ
  z : ℝ

/-- `estimatedWorkers`, domaindecomposition.py 179. -/
noncomputable def Parts.est (p : Parts) : Int := ⌊p.y⌋₊ * ⌊p.x⌋₊ * ⌊p.z⌋₊

/-- One round of the loop of domaindecomposition.py 178-198: the next numbers, or none if it ends. -/
noncomputable def decompStep (num : Int) (p : Parts) : Option Parts :=
  if p.est > num then some ⟨p.x * 0.99, p.y * 0.99, p.z * 0.99⟩
  else if p.est < num then
    let remaining := num - p.est
    let offAxis : List Int := [⌊p.y⌋₊ * ⌊p.z⌋₊, ⌊p.x⌋₊ * ⌊p.z⌋₊, ⌊p.y⌋₊ * ⌊p.x⌋₊]
    let diff := offAxis.map (· - remaining)
    if ∀ d ∈ diff, d > 0 then none
    else
      let idx := idxOfSmallest diff
      some ⟨if idx = 0 then ⌊p.x⌋₊ + 1 else p.x, if idx = 1 then ⌊p.y⌋₊ + 1 else p.y, if idx = 2 then ⌊p.z⌋₊ + 1 else p.z⟩
  else none

/-- The loop of domaindecomposition.py 178-198. -/
noncomputable def decompLoop (num : Int) : Nat → Parts → Option Parts
  | 0, _ => none
  | n + 1, p =>
    match decompStep num p with
    | none => some p
    | some p' => decompLoop num n p'

/-- `sideDecomposition`, domaindecomposition.py 155-207: the numbers of points and `unusedWorkers`. -/
noncomputable def sideDecomposition (fuel : Nat) (mn mx : V3) (num : Int) : Option (Res ((Fin 3 → Nat) × Int)) :=
  match leastSquares |mx 0 - mn 0| |mx 1 - mn 1| |mx 2 - mn 2| with
  | none => some .throws
  | some m =>
    (decompLoop num fuel ⟨⌊(m 0)⁻¹⌋₊, ⌊(m 1)⁻¹⌋₊, ⌊(m 2)⁻¹⌋₊⟩).map fun p =>
      .ok (![⌊p.x⌋₊ + 1, ⌊p.y⌋₊ + 1, ⌊p.z⌋₊ + 1], num - p.est)

/-- The constructor of `Globaldomain`, domaindecomposition.py 135-152: the grid and the subdomains. -/
noncomputable def globaldomain (fuel : Nat) (mn mx : V3) (num : Int) (decomp : Fin 3 → Nat) : Option (Res (Grid × List Sub)) :=
  if decomp 0 = 0 ∧ decomp 1 = 0 ∧ decomp 2 = 0 then
    (sideDecomposition fuel mn mx num).map fun r => r.bind fun (n, unused) => .ok (⟨mn, mx, n⟩, partitionSubdomains ⟨mn, mx, n⟩ unused)
  else
    let g : Grid := ⟨mn, mx, fun a => decomp a + 1⟩
    some (.ok (g, partitionSubdomains g 0))

/-! ## Finding the subdomain of a point -/

/-- `totalDist`, domaindecomposition.py 288-291. -/
noncomputable def totalDist (p : V3) (sd : Sub) : ℝ := sd.points.foldl (fun d q => d + norm3 (p - q)) 0

/-- The loop of `findSubdomain`, domaindecomposition.py 287-294. -/
noncomputable def findFrom (p : V3) : List Sub → ℝ × Nat → ℝ × Nat
  | [], acc => acc
  | sd :: t, (minDist, home) => findFrom p t (if totalDist p sd < minDist then (totalDist p sd, sd.worker) else (minDist, home))

/-- `findSubdomain`, domaindecomposition.py 281-295. -/
noncomputable def findSubdomain (l : List Sub) (p : V3) : Nat := (findFrom p l (10000000, 0)).2

/-! ## Clouds -/

/-- `makeDomainCornerPoints`, domaindecomposition.py 113-124. -/
def cornerPoints (mn mx : V3) : List V3 :=
  let x := |mx 0 - mn 0|
  let y := |mx 1 - mn 1|
  let z := |mx 2 - mn 2|
  [![mn 0, mn 1, mn 2], ![mn 0 + x, mn 1, mn 2], ![mn 0, mn 1 + y, mn 2], ![mn 0 + x, mn 1 + y, mn 2],
   ![mn 0, mn 1, mn 2 + z], ![mn 0 + x, mn 1, mn 2 + z], ![mn 0, mn 1 + y, mn 2 + z], ![mn 0 + x, mn 1 + y, mn 2 + z]]

/-- `nearestNeighborDist`, domaindecomposition.py 78-91. -/
noncomputable def nearestDist (others : List V3) (p : V3) : ℝ := others.foldl (fun d q => if norm3 (p - q) < d then norm3 (p - q) else d) 1000000

/-- `findMostRemotePointNN`, domaindecomposition.py 74-96, for the points there are and the corners. -/
noncomputable def mostRemote (others points : List V3) : Option V3 :=
  (points.foldl (fun (sel, far) p => if nearestDist others p > far then (some p, nearestDist others p) else (sel, far)) ((none : Option V3), (0 : ℝ))).1

/-- A point drawn, domaindecomposition.py 50-52: `rand.uniform(a,b)` is `a + (b-a)*random()`. -/
def draw (mn mx : V3) (g : Nat → ℝ) : V3 := fun a => mn a + (mx a - mn a) * g a.val

/-- The sample `pointSample` after the inner loop, domaindecomposition.py 48-53: it is emptied in each round. -/
def samples (mn mx : V3) : Nat → (Nat → ℝ) → Option (List V3)
  | 0, _ => none
  | 1, g => some [draw mn mx g]
  | r + 2, g => samples mn mx (r + 1) fun n => g (n + 3)

/-- `generateRandomCloud`, domaindecomposition.py 46-55, from worker `i`: points with their workers.  Without
samples a name is not defined; a point that is not there has no coordinates, which is an exception when it is first
used, in the model at once. -/
noncomputable def cloudFrom (mn mx : V3) (realizations : Nat) : Nat → Nat → List (V3 × Nat) → (Nat → ℝ) → Res (List (V3 × Nat))
  | 0, _, l, _ => .ok l
  | n + 1, i, l, g =>
    match samples mn mx realizations g with
    | none => .throws
    | some s =>
      match mostRemote (l.map Prod.fst ++ cornerPoints mn mx) s with
      | none => .throws
      | some p => cloudFrom mn mx realizations n (i + 1) (l ++ [(p, i + 1)]) fun n => g (n + 3 * realizations)

/-- The constructor of `GlobaldomainCloud`, domaindecomposition.py 35-43. -/
noncomputable def cloud (mn mx : V3) (numThreads realizations : Nat) (g : Nat → ℝ) : Res (List (V3 × Nat)) :=
  cloudFrom mn mx realizations numThreads 0 [] g

/-- The loop of `findSubdomain` of clouds, domaindecomposition.py 105-110. -/
noncomputable def findCloudFrom (p : V3) : List (V3 × Nat) → ℝ × Nat → ℝ × Nat
  | [], acc => acc
  | (q, w) :: t, (minDist, home) => findCloudFrom p t (if norm3 (p - q) < minDist then (norm3 (p - q), w) else (minDist, home))

/-- `findSubdomain` of clouds, domaindecomposition.py 99-111. -/
noncomputable def findCloud (l : List (V3 × Nat)) (p : V3) : Nat := (findCloudFrom p l (10000000, 0)).2

end Verif.Decomp
