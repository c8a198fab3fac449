import Verif.Intr.Model
/-!
# Specification of the interaction container (C06)

The specification talks about a table from unordered pairs to interaction
objects and does not use the representation of `Verif/Intr/Model.lean`.
-/
namespace Verif.Intr
open Verif

/-! ## C06: the container is a map keyed by unordered pairs -/

/-- API operations.  `newBody` is `O.bodies.append`; `newObj x y junk` constructs an interaction
object (`junk` is the value its back reference happens to have); `fill h g p` is a functor setting
or dropping geometry/physics; `erase x y pos` is `InteractionContainer::erase`; `list` is iteration. -/
inductive Op where
  | newBody
  | newObj (x y junk : Int)
  | fill (h : Nat) (geom phys : Bool)
  | insert (h : Nat)
  | erase (x y pos : Int)
  | requestErase (x y : Int)
  | clear
  | find (x y : Int)
  | has (x y : Int)
  | list

/-- What an operation returns. -/
inductive Out where
  | unit
  | flag (b : Bool)
  | ref (r : Option Nat)
  | items (l : List Nat)

/-- Running one operation on the model. -/
def exec (s : St) : Op → Res (St × Out)
  | .newBody => .ok (appendBody s [], .unit)
  | .newObj x y junk => .ok ((alloc s x y junk).1, .ref (some (alloc s x y junk).2))
  | .fill h g p =>
    match s.heap[h]? with
    | some i => .ok ({ s with heap := s.heap.set h { i with geom := g, phys := p } }, .unit)
    | none => .ub
  | .insert h => match Intr.insert s h with
    | .ok (s', b) => .ok (s', .flag b)
    | .throws => .throws
    | .ub => .ub
  | .erase x y pos => match Intr.erase s x y pos with
    | .ok (s', b) => .ok (s', .flag b)
    | .throws => .throws
    | .ub => .ub
  | .requestErase x y => match Intr.requestErase s x y with
    | .ok s' => .ok (s', .unit)
    | .throws => .throws
    | .ub => .ub
  | .clear => .ok (Intr.clear s, .unit)
  | .find x y => match Intr.find s x y with
    | .ok r => .ok (s, .ref r)
    | .throws => .throws
    | .ub => .ub
  | .has x y => match Intr.found s x y with
    | .ok b => .ok (s, .flag b)
    | .throws => .throws
    | .ub => .ub
  | .list => .ok (s, .items s.lin)

/-- Running a history. -/
def execAll (s : St) : List Op → Res (St × List Out)
  | [] => .ok (s, [])
  | op :: ops => match exec s op with
    | .ok (s', o) => match execAll s' ops with
      | .ok (s'', os) => .ok (s'', o :: os)
      | .throws => .throws
      | .ub => .ub
    | .throws => .throws
    | .ub => .ub

/-! ### Specification -/

/-- An interaction as the user sees it. -/
structure Obj where
  a : Int
  b : Int
  geom : Bool
  phys : Bool
  deriving DecidableEq, Repr

/-- `n` bodies, the interaction objects created so far, and a table from pairs to objects. -/
structure Spec where
  n : Nat
  objs : List Obj
  tbl : Int → Int → Option Nat

/-- same unordered pair -/
def SamePair (a b x y : Int) : Prop := (a = x ∧ b = y) ∨ (a = y ∧ b = x)
instance (a b x y : Int) : Decidable (SamePair a b x y) := by unfold SamePair; infer_instance

/-- State change required by the specification. -/
def Spec.next (sp : Spec) : Op → Spec
  | .newBody => { sp with n := sp.n + 1 }
  | .newObj x y _ => { sp with objs := sp.objs ++ [⟨x, y, false, false⟩] }
  | .fill h g p => match sp.objs[h]? with
    | some o => { sp with objs := sp.objs.set h { o with geom := g, phys := p } }
    | none => sp
  | .insert h => match sp.objs[h]? with
    | some o => if (sp.tbl o.a o.b).isSome then sp
      else { sp with tbl := fun x y => if SamePair o.a o.b x y then some h else sp.tbl x y }
    | none => sp
  | .erase a b _ => { sp with tbl := fun x y => if SamePair a b x y then none else sp.tbl x y }
  | .requestErase a b => match sp.tbl a b with
    | some h => match sp.objs[h]? with
      | some o => { sp with objs := sp.objs.set h { o with geom := false, phys := false } }
      | none => sp
    | none => sp
  | .clear => { sp with tbl := fun _ _ => none }
  | .find _ _ => sp
  | .has _ _ => sp
  | .list => sp

/-- Output required by the specification. -/
def Spec.allows (sp : Spec) : Op → Out → Prop
  | .newObj _ _ _, out => out = .ref (some sp.objs.length)
  | .insert h, out => ∃ o, sp.objs[h]? = some o ∧ out = .flag (sp.tbl o.a o.b).isNone
  | .erase x y _, out => out = .flag (sp.tbl x y).isSome
  | .find x y, out => out = .ref (sp.tbl x y)
  | .has x y, out => out = .flag (sp.tbl x y).isSome
  | .list, out => ∃ l, out = .items l ∧ l.Nodup ∧ ∀ h, h ∈ l ↔ ∃ x y, sp.tbl x y = some h
  | _, out => out = .unit

/-- Callers' obligations: an inserted object joins two distinct existing bodies; looked-up ids are
not negative; `erase` is given a position only for a pair that is stored. -/
def Spec.legal (sp : Spec) : Op → Prop
  | .fill h _ _ => h < sp.objs.length
  | .insert h => ∃ o, sp.objs[h]? = some o ∧ o.a ≠ o.b ∧ 0 ≤ o.a ∧ o.a < sp.n ∧ 0 ≤ o.b ∧ o.b < sp.n
  | .erase x y pos => 0 ≤ x ∧ 0 ≤ y ∧ (pos < 0 ∨ (sp.tbl x y).isSome)
  | .requestErase x y => 0 ≤ x ∧ 0 ≤ y
  | .find x y => 0 ≤ x ∧ 0 ≤ y
  | .has x y => 0 ≤ x ∧ 0 ≤ y
  | _ => True

/-- A history all of whose operations are legal when they are issued. -/
def Spec.legalAll (sp : Spec) : List Op → Prop
  | [] => True
  | op :: ops => sp.legal op ∧ (sp.next op).legalAll ops

/-- All outputs of a history are as required. -/
def Spec.allowsAll (sp : Spec) : List Op → List Out → Prop
  | [], [] => True
  | op :: ops, o :: os => sp.allows op o ∧ (sp.next op).allowsAll ops os
  | _, _ => False

/-- the empty scene -/
def Spec.empty : Spec := ⟨0, [], fun _ _ => none⟩
/-- the empty scene in the model -/
def St.empty : St := ⟨[], [], [], []⟩

end Verif.Intr
