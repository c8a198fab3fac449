import Verif.Base
import Mathlib.Data.Real.Basic
import Mathlib.Data.List.Basic

/-!
# Data for plots

`py/plot.py` lines 49-58, 85-114, 205-290 and 614-651.  Dictionaries are lists of names with values without repeated names; which name is the first
one of a dictionary (`keys()[0]`) is not fixed in Python 2, so it is given by a function `pick`.  "Not a number" is `none`; values are
of any type.  All exceptions of Python are `throws`; where the data were changed before, the model says so.
-/
namespace Verif.Plot

variable {α : Type} {β : Type}

/-- A dictionary with lists as values: `data` and `imgData`, lines 49-52. -/
abbrev Dict (γ : Type) := List (String × List γ)

/-- `d[k]`; nothing for names that are not there. -/
def get {γ : Type} (d : Dict γ) (k : String) : List γ := ((d.find? fun e => e.1 = k).map Prod.snd).getD []

/-- The names. -/
def keys {γ : Type} (d : List (String × γ)) : List String := d.map Prod.fst

/-- The lists, changed one by one (`for k in d: d[k]=...`). -/
def mapVals {γ : Type} (f : String → List γ → List γ) (d : Dict γ) : Dict γ := d.map fun e => (e.1, f e.1 e.2)

/-- `len(d[d.keys()[0]]) if len(d)>0 else 0`, lines 111 and 242-243. -/
def firstLen {γ : Type} (pick : List String → String) (d : Dict γ) : ℕ := if d = [] then 0 else (get d (pick (keys d))).length

/-- The state of the module: lines 49-56; `α` are the values in plots, `β` the names of images, `γ` the specifications of plots. -/
structure St (α β γ : Type) where
  data : Dict (Option α)
  img : Dict (Option β)
  plots : List γ
  labels : List (String × String)

variable {γ : Type}

/-- `reset`, lines 85-89: `imgData` is a local variable there, and `labels` is not assigned. -/
def St.reset (s : St α β γ) : St α β γ := { s with data := [], plots := [] }

/-- `resetData`, lines 91-94. -/
def St.resetData (s : St α β γ) : St α β γ := { s with data := [] }

/-- `reverseData`, lines 102-107. -/
def St.reverse (s : St α β γ) : St α β γ := { s with data := mapVals (fun _ l => l.reverse) s.data }

/-- New names with lists, line 113-114 and 258-259. -/
def addNames {δ : Type} (d : Dict δ) (l : List δ) : List String → Dict δ
  | [] => d
  | k :: ks => addNames (if k ∈ keys d then d else d ++ [(k, l)]) l ks

/-- `addDataColumns`, lines 109-114. -/
def St.addColumns (pick : List String → String) (s : St α β γ) (ks : List String) : St α β γ :=
  { s with data := addNames s.data (List.replicate (firstLen pick s.data) none) ks }

/-- What may be given to `addData` under a name: a number, one of the types with components (with the suffixes of lines 82 and
their values), another sequence. -/
inductive Val (α : Type)
  | num (v : Option α)
  | comps (l : List (String × Option α))
  | other

/-- `d[k]=v`. -/
def put {δ : Type} (d : List (String × δ)) (k : String) (v : δ) : List (String × δ) :=
  if k ∈ keys d then d.map fun e => if e.1 = k then (k, v) else e else d ++ [(k, v)]

/-- Lines 251-255 for one name. -/
def expandOne (d : List (String × Val α)) (k : String) : Res (List (String × Val α)) :=
  match (d.find? fun e => e.1 = k).map Prod.snd with
  | some (.comps l) => .ok ((l.foldl (fun d c => put d (k ++ "_" ++ c.1) (.num c.2)) d).filter fun e => e.1 ≠ k)
  | some .other => .throws
  | some (.num _) => .ok d
  | none => .throws

/-- Lines 249-257. -/
def expand : List (String × Val α) → List String → Res (List (String × Val α))
  | d, [] => .ok d
  | d, k :: ks => (expandOne d k).bind fun d' => expand d' ks

/-- The number given under a name, or not a number, line 262. -/
def look (d : List (String × Val α)) (k : String) : Option α :=
  match (d.find? fun e => e.1 = k).map Prod.snd with
  | some (.num v) => v
  | _ => none

/-- The number of rows there are, lines 242-245. -/
def St.samples (pick : List String → String) (s : St α β γ) : ℕ :=
  let n := firstLen pick s.data
  if s.img ≠ [] ∧ n = 0 then max n (firstLen pick s.img) else n

/-- Lines 258-262: a row of numbers. -/
def St.addRow (pick : List String → String) (s : St α β γ) (d : List (String × Val α)) : St α β γ :=
  { s with data := mapVals (fun k l => l ++ List.replicate (s.samples pick - l.length) none ++ [look d k]) (addNames s.data [] (keys d)) }

/-- `addData`, lines 205-262; `splitData` (lines 98-100) is `addData` with nothing. -/
def St.addData (pick : List String → String) (s : St α β γ) (d : List (String × Val α)) : Res (St α β γ) :=
  (expand d (keys d)).bind fun d' => .ok (s.addRow pick d')

/-- The last value of a list, or a default: lines 276, 280. -/
def lastOr {δ : Type} (v : δ) (l : List δ) : δ := l.getLastD v

/-- Lines 270-281 of `addImgData`: both made of equal length, or the images shorter by one. -/
def St.align (pick : List String → String) (s : St α β γ) : St α β γ :=
  if s.data ≠ [] ∧ s.img ≠ [] then
    if firstLen pick s.img < firstLen pick s.data - 1 then
      { s with img := mapVals (fun _ l => l ++ List.replicate (firstLen pick s.data - l.length - 1) (lastOr none l)) s.img }
    else if firstLen pick s.data < firstLen pick s.img then
      { s with data := mapVals (fun _ l => l ++ List.replicate (firstLen pick s.img - firstLen pick s.data) (lastOr none l)) s.data }
    else s
  else s

/-- Lines 284-289: the new images, `n` is `newLen`.  Line 289 fails for an empty list that is not given; lists of images are never empty between
calls (`imgs_nonempty`), so it is not told apart. -/
def putImgs (n : ℕ) (kw : List (String × β)) (d : Dict (Option β)) : Dict (Option β) :=
  mapVals (fun k l =>
    let l := match (kw.find? fun e => e.1 = k).map Prod.snd with
      | some v => if 0 < l.length then l ++ List.replicate (n - l.length - 1) (lastOr none l) ++ [some v] else List.replicate (n - 1) none ++ [some v]
      | none => l
    if l.length < n then l ++ List.replicate (n - l.length) (lastOr none l) else l) d

/-- `addImgData`, lines 267-290: the state left and whether the assertion of line 290 held. -/
def St.addImg (pick : List String → String) (s : St α β γ) (kw : List (String × β)) : St α β γ × Bool :=
  let s := ({ s with img := addNames s.img [] (keys kw) } : St α β γ).align pick
  let s := { s with img := putImgs (firstLen pick s.img + 1) kw s.img }
  (s, s.img.all fun e => s.img.all fun e' => e.2.length == e'.2.length)

/-- How variables are given to `saveDataTxt`, line 633: a tuple or list, or a set, which has no first element. -/
inductive Vars
  | all
  | seq (l : List String)
  | set (l : List String)

/-- Lines 649-650: the rows from the i-th on, until a value is missing. -/
def rows (d : Dict (Option α)) (vars : List String) : List ℕ → List (List (Option α)) × Bool
  | [] => ([], true)
  | i :: l =>
    if vars.all fun v => decide (v ∈ keys d ∧ i < (get d v).length) then
      let r := rows d vars l
      ((vars.map fun v => (get d v).getD i none) :: r.1, r.2)
    else ([], false)

/-- Lines 648-650 for a list of variables: names, rows, and whether it ended without an exception. -/
def write (d : Dict (Option α)) (vars : List String) : List String × List (List (Option α)) × Bool :=
  match vars with
  | [] => ([], [], false)
  | v :: _ => if v ∈ keys d then (vars, rows d vars (List.range (get d v).length)) else (vars, [], false)

/-- `saveDataTxt`, lines 614-651, without headers: names, rows, and whether it ended without an exception; `sorted` are the names in order. -/
def St.save (sorted : List String → List String) (s : St α β γ) : Vars → List String × List (List (Option α)) × Bool
  | .all => write s.data (sorted (keys s.data))
  | .seq l => if l = [] then write s.data (sorted (keys s.data)) else write s.data l
  | .set l => if l = [] then write s.data (sorted (keys s.data)) else (l, [], false)

end Verif.Plot
