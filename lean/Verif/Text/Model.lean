import Verif.Base
import Mathlib.Data.Real.Basic
import Mathlib.Algebra.Order.Archimedean.Real.Basic
import Mathlib.Data.Fin.VecNotation
import Mathlib.Algebra.Order.Round
import Mathlib.Data.Int.Log
import Mathlib.Data.Int.Bitwise

/-!
# Spheres in text files

`py/export.py` (`textExt`, `textClumps`) and `py/ymport.py` (`textExt`, `text`, `textClumps`), Python 2.  A file is a list of lines, a line the list of its words
as given by `split()`.  Numbers written are words of their own; how many digits are kept is in the model, how they look is not.  All exceptions of Python but
`AttributeError`, which is caught, are one outcome.  Real numbers; the format `jointedPM` and keyword arguments of `utils.sphere` are not modelled.
-/
namespace Verif.Text

/-- Words: numbers written by `%g` and `%d`, other words, and words written without space between them of which one is a number, export.py 52, 54 and ymport.py 29. -/
inductive Tok where
  | g (x : ℝ)
  | d (n : ℤ)
  | word (s : String)
  | mix (a b : Tok)

/-- What is known about Python: rounding of `%g` to the nearest digit, and the values of words that are not written by `%g` or `%d`, export.py 52-70, ymport.py 36-50. -/
structure Py where
  rnd : ℝ → ℤ
  near : ∀ y, |(rnd y : ℝ) - y| ≤ 1 / 2
  val : Tok → Option ℝ
  ival : Tok → Option ℤ

/-- The value of what `%g` writes: six digits, export.py 52. -/
noncomputable def Py.g6 (P : Py) (x : ℝ) : ℝ :=
  if x = 0 then 0 else P.rnd (x / (10 : ℝ) ^ (Int.log 10 |x| - 5)) * (10 : ℝ) ^ (Int.log 10 |x| - 5)

/-- `float(word)`, ymport.py 36. -/
noncomputable def Py.float (P : Py) : Tok → Option ℝ
  | .g x => some (P.g6 x)
  | .d n => some n
  | t => P.val t

open Classical in
/-- `int(word)`; `%g` writes exponents from a million on, which `int` does not read; ymport.py 40 and 82. -/
noncomputable def Py.int (P : Py) : Tok → Option ℤ
  | .g x => if (⌊P.g6 x⌋ : ℝ) = P.g6 x ∧ |P.g6 x| < 10 ^ 6 then some ⌊P.g6 x⌋ else none
  | .d n => some n
  | t => P.ival t

/-- Whether a word begins with `#`, ymport.py 33. -/
def Tok.hash : Tok → Bool
  | .word s => s.toList.head? == some '#'
  | .mix a _ => a.hash
  | _ => false

/-- Two words without space between them, export.py 36-37 and 56. -/
def Tok.join : Tok → Tok → Tok
  | .word a, .word b => .word (a ++ b)
  | a, b => .mix a b

/-- Vectors, `Vector3` of export.py 60. -/
abbrev V3 := Fin 3 → ℝ

/-- Bodies: `rad` for spheres, `mat` the id of the material if there is one, `dens` its density, `members` of clumps; what export.py 50-71 and 150-157 reads. -/
structure Body where
  id : ℤ
  rad : Option ℝ
  mask : ℤ
  pos : V3
  vel : V3
  angVel : V3
  mat : Option ℤ
  dens : ℝ
  members : Option (List ℤ)

/-- Values of attributes given as expressions: `missing` for `AttributeError`, `raises` for other exceptions, `other` for values of other types; export.py 57-64. -/
inductive Val where
  | num (x : ℝ)
  | vec (v : V3)
  | mat
  | other
  | missing
  | raises

/-- What was written: lines, the last one if it is not ended, and the number of spheres; export.py 25-29. -/
structure Out where
  lines : List (List Tok)
  cur : List Tok
  count : ℕ

/-- Words written after those of a line which was not ended, by `output+=` of export.py 36, 52, 56; lines of comments have no space at their ends. -/
def glue : List Tok → List Tok → List Tok
  | [], ts => ts
  | c, [] => c
  | c, t :: ts => c.dropLast ++ (c.getLastD t).join t :: ts

/-- Text without end of line, export.py 36 and 56. -/
def Out.put (o : Out) (ts : List Tok) : Out := { o with cur := glue o.cur ts }

/-- The end of a line, export.py 65. -/
def Out.nl (o : Out) : Out := { o with lines := o.lines ++ [o.cur], cur := [] }

/-- More words after a space, export.py 60-64. -/
def Out.more (o : Out) (ts : List Tok) : Out := { o with cur := o.cur ++ ts }

/-- Lines of the file, export.py 94 and ymport.py 25. -/
def Out.file (o : Out) : List (List Tok) := if o.cur = [] then o.lines else o.lines ++ [o.cur]

/-- Words of a comment, export.py 36-40. -/
def words (l : List String) : List Tok := l.map Tok.word

/-- export.py 31-42 and 140-143: the header; `comment` is a list of lines of words, empty if there is none. -/
def header (format : String) (comment : List (List String)) : Out :=
  let o : Out := { lines := [[.word "#format", .word format]], cur := [], count := 0 }
  if comment = [] then o
  else if format = "x_y_z_r_attrs" then
    ((comment.dropLast.foldl (fun (o : Out) l => o.put (words l)) o).put ([Tok.word "#", .word "x", .word "y", .word "z", .word "r"] ++ words (comment.getLastD []))).nl
  else { o with lines := o.lines ++ (Tok.word "#" :: words (comment.headD [])) :: comment.tail.map words }

/-- Whether a body is written, export.py 50 and 156. -/
def chosen (mask : ℤ) (b : Body) : Bool := b.rad.isSome && (decide (mask < 0) || decide (Int.land mask b.mask > 0))

/-- Position and radius, export.py 52. -/
def xyzr (b : Body) : List Tok := [.g (b.pos 0), .g (b.pos 1), .g (b.pos 2), .g (b.rad.getD 0)]

/-- export.py 57-64: attributes of a body; the flag tells that `AttributeError` ended them. -/
def writeAttrs (b : Body) : List (Body → Val) → Out → Res (Out × Bool)
  | [], o => .ok (o, false)
  | f :: fs, o =>
    match f b with
    | .num x => writeAttrs b fs (o.more [.g x])
    | .vec v => writeAttrs b fs (o.more [.g (v 0), .g (v 1), .g (v 2)])
    | .mat => .throws
    | .other => writeAttrs b fs o
    | .missing => .ok (o, true)
    | .raises => .throws

/-- One more sphere, export.py 75. -/
def Out.done (o : Out) : Out := { o with count := o.count + 1 }

/-- export.py 51-75: a sphere; without a material there is `AttributeError` and nothing is written. -/
def write (format : String) (attrs : List (Body → Val)) (b : Body) (o : Out) : Res Out :=
  if format = "x_y_z_r" then .ok ((o.put (xyzr b)).nl.done)
  else if format = "x_y_z_r_matId" then
    match b.mat with
    | some m => .ok ((o.put (xyzr b ++ [.d m])).nl.done)
    | none => .ok o
  else if format = "x_y_z_r_attrs" then
    (writeAttrs b attrs (o.put (xyzr b))).bind fun r => if r.2 then .ok r.1 else .ok (r.1.nl.done)
  else if format = "id_x_y_z_r_matId" then
    match b.mat with
    | some m => .ok ((o.put (.d b.id :: xyzr b ++ [.d m])).nl.done)
    | none => .ok o
  else .throws

/-- export.py 48-85. -/
def writeAll (format : String) (mask : ℤ) (attrs : List (Body → Val)) : List Body → Out → Res Out
  | [], o => .ok o
  | b :: bs, o => if chosen mask b then (write format attrs b o).bind (writeAll format mask attrs bs) else writeAll format mask attrs bs o

/-- `export.textExt` but the formats `liggghts_in` and `jointedPM`, export.py 8-96: the file and the result. -/
def textExt (format : String) (comment : List (List String)) (mask : ℤ) (attrs : List (Body → Val)) (bs : List Body) : Res (List (List Tok) × ℕ) :=
  (writeAll format mask attrs bs (header format comment)).bind fun o => .ok (o.file, o.count)

/-! ## Import -/

/-- What `utils.sphere` is given: position, radius, and the material, `-1` by default. -/
structure Sph where
  pos : V3
  rad : ℝ
  mat : ℤ

/-- `shift+scale*pos` and `scale*radius`, ymport.py 37. -/
def place (shift : V3) (scale : ℝ) (p : V3) (r : ℝ) (m : ℤ) : Sph := { pos := shift + scale • p, rad := scale * r, mat := m }

/-- Four words as numbers, ymport.py 36-37. -/
noncomputable def Py.four (P : Py) : List Tok → Option (V3 × ℝ)
  | a :: b :: c :: r :: _ => (P.float a).bind fun x => (P.float b).bind fun y => (P.float c).bind fun z => (P.float r).map fun q => (![x, y, z], q)
  | _ => none

/-- What `ymport.textExt` has read: the format, spheres, words of attributes. -/
structure In where
  format : Tok
  ret : List Sph
  attrs : List (List Tok)

/-- Whether a word is the one given, ymport.py 30 and 35. -/
def Tok.isW (s : String) : Tok → Bool
  | .word w => w == s
  | _ => false

/-- A sphere read, or an exception, ymport.py 37 and 49-50. -/
def In.take (s : In) (x : Option Sph) (attrs : List (List Tok)) : Res In :=
  match x with
  | some p => .ok { s with ret := s.ret ++ [p], attrs := s.attrs ++ attrs }
  | none => .throws

/-- Position, radius and material, ymport.py 39-40. -/
noncomputable def Py.sph (P : Py) (shift : V3) (scale : ℝ) (l : List Tok) (m : Option ℤ) : Option Sph :=
  (P.four l).bind fun x => m.map fun m => place shift scale x.1 x.2 m

/-- ymport.py 35-54: a line of data. -/
noncomputable def Py.data (P : Py) (shift : V3) (scale : ℝ) (s : In) (l : List Tok) : Res In :=
  if s.format.isW "x_y_z_r" then s.take (P.sph shift scale l (some (-1))) []
  else if s.format.isW "x_y_z_r_matId" then s.take (P.sph shift scale l ((l[4]?).bind P.int)) []
  else if s.format.isW "id_x_y_z_r_matId" then s.take (P.sph shift scale l.tail ((l[5]?).bind P.int)) []
  else if s.format.isW "x_y_z_r_attrs" then s.take (P.sph shift scale l (some (-1))) [l.drop 4]
  else .throws

/-- ymport.py 28-54: a line; an empty one is an exception. -/
noncomputable def Py.line (P : Py) (shift : V3) (scale : ℝ) (s : In) : List Tok → Res In
  | [] => .throws
  | t :: ts =>
    if t.isW "#format" then (if ts = [] then .throws else .ok { s with format := ts.headD t })
    else if t.hash then .ok s else P.data shift scale s (t :: ts)

/-- ymport.py 28-54. -/
noncomputable def Py.lines (P : Py) (shift : V3) (scale : ℝ) : List (List Tok) → In → Res In
  | [], s => .ok s
  | l :: ls, s => (P.line shift scale s l).bind (P.lines shift scale ls)

/-- `ymport.textExt`, ymport.py 11-54: spheres and words of attributes. -/
noncomputable def Py.ymport (P : Py) (format : String) (shift : V3) (scale : ℝ) (file : List (List Tok)) : Res (List Sph × List (List Tok)) :=
  (P.lines shift scale file { format := .word format, ret := [], attrs := [] }).bind fun s => .ok (s.ret, s.attrs)

/-- `ymport.text`, ymport.py 100-112. -/
noncomputable def Py.text (P : Py) (shift : V3) (scale : ℝ) (file : List (List Tok)) : Res (List Sph × List (List Tok)) := P.ymport "x_y_z_r" shift scale file

/-! ## Clumps -/

/-- Lines of the members of a clump, export.py 151-160; `find` is `O.bodies[id]`, members which do not exist are skipped by `AttributeError`. -/
def clumpLines (find : ℤ → Option Body) (mask : ℤ) (id : ℤ) (ms : List ℤ) : List (List Tok) :=
  ms.filterMap fun i => (find i).bind fun b => if chosen mask b then some (xyzr b ++ [.g id]) else none

/-- Lines of all clumps, and their number, export.py 149-160. -/
def clumpAll (find : ℤ → Option Body) (mask : ℤ) : List Body → List (List Tok) × ℕ
  | [] => ([], 0)
  | b :: bs =>
    match b.members with
    | some ms => (clumpLines find mask b.id ms ++ (clumpAll find mask bs).1, (clumpAll find mask bs).2 + 1)
    | none => clumpAll find mask bs

/-- `export.textClumps`, export.py 122-164: the file, the number of clumps and of spheres. -/
def textClumps (find : ℤ → Option Body) (comment : List (List String)) (mask : ℤ) (bs : List Body) : List (List Tok) × ℕ × ℕ :=
  ((header "x_y_z_r_clumpId" comment).lines ++ (clumpAll find mask bs).1, (clumpAll find mask bs).2, (clumpAll find mask bs).1.length)

/-- What `ymport.textClumps` has read: clumps which are complete, spheres of the present one, its id. -/
structure Cl where
  ret : List (List Sph)
  cur : List Sph
  id : ℤ

/-- ymport.py 77-89: a line; `rot` is the rotation by `orientation`. -/
noncomputable def Py.clumpLine (P : Py) (shift : V3) (rot : V3 → V3) (scale : ℝ) (s : Cl) (l : List Tok) : Res Cl :=
  if l = [] then .throws
  else if (l.headD (.d 0)).hash then .ok s
  else
    match P.four l, (l[4]?).bind P.int with
    | some (p, r), some i =>
      if s.id < 0 ∨ s.id = i then .ok { s with cur := s.cur ++ [place shift scale (rot p) r (-1)], id := i }
      else .ok { ret := s.ret ++ [s.cur], cur := [place shift scale (rot p) r (-1)], id := i }
    | _, _ => .throws

/-- ymport.py 77-89. -/
noncomputable def Py.clumpLinesIn (P : Py) (shift : V3) (rot : V3 → V3) (scale : ℝ) : List (List Tok) → Cl → Res Cl
  | [], s => .ok s
  | l :: ls, s => (P.clumpLine shift rot scale s l).bind (P.clumpLinesIn shift rot scale ls)

/-- `ymport.textClumps`, ymport.py 57-97: the spheres of each clump added. -/
noncomputable def Py.clumps (P : Py) (shift : V3) (rot : V3 → V3) (scale : ℝ) (file : List (List Tok)) : Res (List (List Sph)) :=
  (P.clumpLinesIn shift rot scale file { ret := [], cur := [], id := -1 }).bind fun s => .ok (if s.cur = [] then s.ret else s.ret ++ [s.cur])

/-! ## LIGGGHTS -/

/-- What is collected for LIGGGHTS: lines of atoms and velocities, the number of spheres, corners of the box, masks. -/
structure Lig where
  atoms : List (List Tok)
  vels : List (List Tok)
  count : ℕ
  lo : V3
  hi : V3
  masks : List ℤ

/-- export.py 76-81; the third component of the upper corner is `max(minCoord[2],…)`. -/
def Lig.box (s : Lig) (b : Body) : V3 × V3 :=
  let r := b.rad.getD 0
  if s.count = 0 then (fun i => b.pos i - r, fun i => b.pos i + r)
  else (fun i => min (s.lo i) (b.pos i - r), ![max (s.hi 0) (b.pos 0 + r), max (s.hi 1) (b.pos 1 + r), max (min (s.lo 2) (b.pos 2 - r)) (b.pos 2 + r)])

/-- export.py 70-83: a sphere; without a material nothing is written. -/
def Lig.add (s : Lig) (b : Body) : Lig :=
  match b.mat with
  | none => s
  | some _ =>
    { atoms := s.atoms ++ [[.g (s.count + 1 : ℕ), .g b.mask, .g (b.rad.getD 0), .g b.dens, .g (b.pos 0), .g (b.pos 1), .g (b.pos 2)]]
      vels := s.vels ++ [[.g (s.count + 1 : ℕ), .g (b.vel 0), .g (b.vel 1), .g (b.vel 2), .g (b.angVel 0), .g (b.angVel 1), .g (b.angVel 2)]]
      count := s.count + 1
      lo := (s.box b).1
      hi := (s.box b).2
      masks := if b.mask ∈ s.masks then s.masks else s.masks ++ [b.mask] }

/-- `export.textExt(format='liggghts_in')`, export.py 43-85; the corners are written in the header, lines 88-90. -/
def liggghts (mask : ℤ) (bs : List Body) : Lig :=
  (bs.filter (chosen mask)).foldl Lig.add { atoms := [], vels := [], count := 0, lo := 0, hi := 0, masks := [] }

end Verif.Text
