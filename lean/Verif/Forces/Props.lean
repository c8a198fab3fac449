import Mathlib.Algebra.Group.Int.Defs
import Verif.Forces.Race
import Verif.Forces.Serial
/-!
# Properties of the force container (C11–C15, C61–C63)

A history is a list of calls, each with the thread that makes it.  The specification below only looks
at the list of calls: the value a user expects for a body is the sum of what was added for it after the
last `reset`, and its permanent force is what the last `setPermF` for this body said.
-/
namespace Verif.Forces
open Verif

variable {V : Type} [AddCommMonoid V]

/-- calls of the force container -/
inductive Op (V : Type) where
  | addForce (th id : Nat) (v : V)
  | addTorque (th id : Nat) (v : V)
  | addMove (th id : Nat) (v : V)
  | addRot (th id : Nat) (v : V)
  | addMaxId (th id : Nat)
  | setPermForce (id : Nat) (v : V) (oob : Option Nat)
  | setPermTorque (id : Nat) (v : V) (oob : Option Nat)
  | sync
  | reset (iter : Int) (all : Bool)

/-- run one call -/
def exec1 (s : FC V) : Op V → Res (FC V)
  | .addForce th id v => addForce s th id v
  | .addTorque th id v => addTorque s th id v
  | .addMove th id v => addMove s th id v
  | .addRot th id v => addRot s th id v
  | .addMaxId th id => .ok (addMaxId s th id)
  | .setPermForce id v o => setPermForce s id v o
  | .setPermTorque id v o => setPermTorque s id v o
  | .sync => sync s
  | .reset i a => reset s i a

/-- run a history from a state -/
def exec (s : FC V) : List (Op V) → Res (FC V)
  | [] => .ok s
  | o :: os => match exec1 s o with
    | .ok s' => exec s' os
    | .throws => .throws
    | .ub => .ub

/-! ### Specification -/

/-- force added for body `id` since the last reset -/
def forceStep (id : Nat) (acc : V) : Op V → V
  | .addForce _ i v => if id = i then acc + v else acc
  | .reset _ _ => 0
  | _ => acc
@[inherit_doc forceStep] def forceSpec (id : Nat) (ops : List (Op V)) : V := ops.foldl (forceStep id) 0
/-- torque added for body `id` since the last reset -/
def torqueStep (id : Nat) (acc : V) : Op V → V
  | .addTorque _ i v => if id = i then acc + v else acc
  | .reset _ _ => 0
  | _ => acc
@[inherit_doc torqueStep] def torqueSpec (id : Nat) (ops : List (Op V)) : V := ops.foldl (torqueStep id) 0
/-- displacement added for body `id` since the last reset -/
def moveStep (id : Nat) (acc : V) : Op V → V
  | .addMove _ i v => if id = i then acc + v else acc
  | .reset _ _ => 0
  | _ => acc
@[inherit_doc moveStep] def moveSpec (id : Nat) (ops : List (Op V)) : V := ops.foldl (moveStep id) 0
/-- rotation added for body `id` since the last reset -/
def rotStep (id : Nat) (acc : V) : Op V → V
  | .addRot _ i v => if id = i then acc + v else acc
  | .reset _ _ => 0
  | _ => acc
@[inherit_doc rotStep] def rotSpec (id : Nat) (ops : List (Op V)) : V := ops.foldl (rotStep id) 0
/-- permanent force of body `id`: the last one set, unless everything was reset since -/
def permStep (id : Nat) (acc : V) : Op V → V
  | .setPermForce i v _ => if id = i then v else acc
  | .reset _ true => 0
  | _ => acc
@[inherit_doc permStep] def permSpec (id : Nat) (ops : List (Op V)) : V := ops.foldl (permStep id) 0
/-- permanent torque of body `id` -/
def permTorqueStep (id : Nat) (acc : V) : Op V → V
  | .setPermTorque i v _ => if id = i then v else acc
  | .reset _ true => 0
  | _ => acc
@[inherit_doc permTorqueStep] def permTorqueSpec (id : Nat) (ops : List (Op V)) : V := ops.foldl (permTorqueStep id) 0

/-- calls come from one of the `n` threads the container was made for, and the access outside a vector made
by `setPermF`/`setPermT` (ForceContainerParallel.cpp:28–29) is survived -/
def Valid (n : Nat) : Op V → Prop
  | .addForce th _ _ | .addTorque th _ _ | .addMove th _ _ | .addRot th _ _ | .addMaxId th _ => th < n
  | .setPermForce _ _ o | .setPermTorque _ _ o => o ≠ none
  | _ => True

/-- no permanent forces are used -/
def NoPerm : Op V → Prop
  | .setPermForce _ _ _ | .setPermTorque _ _ _ => False
  | _ => True

/-- ids given to `setPermF`/`setPermT` in a history -/
def permIds : List (Op V) → List Nat
  | [] => []
  | .setPermForce i _ _ :: os => i :: permIds os
  | .setPermTorque i _ _ :: os => i :: permIds os
  | _ :: os => permIds os

/-! ### Simulation -/

/-- what the specification says after one more call -/
def next (g : Sums V) : Op V → Sums V
  | .addForce _ i v => { g with F := bump g.F i v }
  | .addTorque _ i v => { g with T := bump g.T i v }
  | .addMove _ i v => { g with M := bump g.M i v }
  | .addRot _ i v => { g with R := bump g.R i v }
  | .reset _ _ => Sums.zero
  | _ => g

theorem exec1_inv {s : FC V} {g : Sums V} (h : Inv s g) {o : Op V} (hv : Valid s.nThreads o) :
    ∃ s', exec1 s o = .ok s' ∧ Inv s' (next g o) ∧ s'.nThreads = s.nThreads := by
  cases o with
  | addForce th id v => obtain ⟨s', a, b, c, _⟩ := addForce_inv h hv id v; exact ⟨s', a, b, c⟩
  | addTorque th id v => obtain ⟨s', a, b, c, _⟩ := addTorque_inv h hv id v; exact ⟨s', a, b, c⟩
  | addMove th id v => obtain ⟨s', a, b, c, _⟩ := addMove_inv h hv id v; exact ⟨s', a, b, c⟩
  | addRot th id v => obtain ⟨s', a, b, c, _⟩ := addRot_inv h hv id v; exact ⟨s', a, b, c⟩
  | addMaxId th id => exact ⟨_, rfl, addMaxId_inv h th id, rfl⟩
  | setPermForce id v o =>
    cases o with
    | none => exact absurd rfl hv
    | some gb => obtain ⟨s', a, b, c, _⟩ := setPermForce_inv h id v gb; exact ⟨s', a, b, c⟩
  | setPermTorque id v o =>
    cases o with
    | none => exact absurd rfl hv
    | some gb => obtain ⟨s', a, b, c, _⟩ := setPermTorque_inv h id v gb; exact ⟨s', a, b, c⟩
  | sync => obtain ⟨s', a, b, c, _⟩ := sync_inv h; exact ⟨s', a, b, c⟩
  | reset i a => obtain ⟨s', e, b, c, _⟩ := reset_inv h i a; exact ⟨s', e, b, c⟩

theorem exec_inv : ∀ (ops : List (Op V)) (s : FC V) (g : Sums V), Inv s g → (∀ o ∈ ops, Valid s.nThreads o) →
    ∃ s', exec s ops = .ok s' ∧ Inv s' (ops.foldl next g) ∧ s'.nThreads = s.nThreads
  | [], s, g, h, _ => ⟨s, rfl, h, rfl⟩
  | o :: os, s, g, h, hv => by
    obtain ⟨s1, e1, h1, n1⟩ := exec1_inv h (hv o (by simp))
    obtain ⟨s2, e2, h2, n2⟩ := exec_inv os s1 _ h1 (fun x hx => by rw [n1]; exact hv x (by simp [hx]))
    exact ⟨s2, by simp only [exec, e1, e2], h2, n2.trans n1⟩

theorem foldl_next (id : Nat) : ∀ (ops : List (Op V)) (g : Sums V),
    (ops.foldl next g).F id = ops.foldl (forceStep id) (g.F id) ∧
    (ops.foldl next g).T id = ops.foldl (torqueStep id) (g.T id) ∧
    (ops.foldl next g).M id = ops.foldl (moveStep id) (g.M id) ∧
    (ops.foldl next g).R id = ops.foldl (rotStep id) (g.R id)
  | [], g => ⟨rfl, rfl, rfl, rfl⟩
  | o :: os, g => by
    obtain ⟨a, b, c, d⟩ := foldl_next id os (next g o)
    simp only [List.foldl_cons]
    rw [a, b, c, d]
    cases o <;> simp [next, bump, Sums.zero, forceStep, torqueStep, moveStep, rotStep]

theorem spec_of_next (id : Nat) (ops : List (Op V)) :
    (ops.foldl next Sums.zero).F id = forceSpec id ops ∧ (ops.foldl next Sums.zero).T id = torqueSpec id ops ∧
    (ops.foldl next Sums.zero).M id = moveSpec id ops ∧ (ops.foldl next Sums.zero).R id = rotSpec id ops := by
  obtain ⟨a, b, c, d⟩ := foldl_next id ops (Sums.zero : Sums V)
  exact ⟨a, b, c, d⟩

theorem exec_append : ∀ (a b : List (Op V)) (s : FC V), exec s (a ++ b) =
    (match exec s a with | .ok s' => exec s' b | .throws => .throws | .ub => .ub)
  | [], b, s => rfl
  | o :: os, b, s => by
    simp only [List.cons_append, exec]
    cases exec1 s o with
    | ok s' => exact exec_append os b s'
    | throws => rfl
    | ub => rfl

/-! ### C11 -/

/-- C11: after any history of calls by any threads and a synchronisation, the container reads, for every
body, the sum of everything added since the last reset plus the permanent force (torque) it holds. -/
theorem C11_sync_sum (n : Nat) (ops : List (Op V)) (hv : ∀ o ∈ ops, Valid n o) :
    ∃ s, exec (FC.init n) (ops ++ [.sync]) = .ok s ∧ ∀ id, ∃ p q,
      getPermForce s id = .ok p ∧ getPermTorque s id = .ok q ∧
      getForce s id = .ok (forceSpec id ops + p) ∧ getTorque s id = .ok (torqueSpec id ops + q) := by
  obtain ⟨s1, e1, h1, n1⟩ := exec_inv ops (FC.init n) _ (inv_init n) hv
  obtain ⟨s2, e2, h2, n2, sy, _⟩ := sync_inv h1
  refine ⟨s2, by rw [exec_append, e1]; simp only [exec, exec1, e2], fun id => ?_⟩
  obtain ⟨a, b, c, d, e, f⟩ := reads_ok h2 sy id
  obtain ⟨u, v, _, _⟩ := spec_of_next id ops
  exact ⟨_, _, e, f, by rw [a, u], by rw [b, v]⟩

/-- C11 without permanent forces: the sum alone; nothing in such a history is undefined or throws. -/
theorem C11_sync_sum_noperm (n : Nat) (ops : List (Op V)) (hv : ∀ o ∈ ops, Valid n o) (hp : ∀ o ∈ ops, NoPerm o) :
    ∃ s, exec (FC.init n) (ops ++ [.sync]) = .ok s ∧ ∀ id,
      getForce s id = .ok (forceSpec id ops) ∧ getTorque s id = .ok (torqueSpec id ops) := by
  obtain ⟨s1, e1, h1, n1⟩ := exec_inv ops (FC.init n) _ (inv_init n) hv
  obtain ⟨s2, e2, h2, n2, sy, _, pu, _, _, _⟩ := sync_inv h1
  have hu : ∀ (os : List (Op V)) (s s' : FC V) (g : Sums V), Inv s g → (∀ o ∈ os, Valid s.nThreads o) → (∀ o ∈ os, NoPerm o) →
      s.permForceUsed = false → exec s os = .ok s' → s'.permForceUsed = false := by
    intro os
    induction os with
    | nil => intro s s' g _ _ _ h e; simp only [exec] at e; cases e; exact h
    | cons o os ih =>
      intro s s' g hi hv hn h e
      have hs : ∃ t, exec1 s o = .ok t ∧ Inv t (next g o) ∧ t.nThreads = s.nThreads ∧ t.permForceUsed = false := by
        obtain ⟨t, et, it, nt⟩ := exec1_inv hi (hv o (by simp))
        refine ⟨t, et, it, nt, ?_⟩
        have hno := hn o (by simp)
        cases o with
        | setPermForce _ _ _ => exact absurd hno (by simp [NoPerm])
        | setPermTorque _ _ _ => exact absurd hno (by simp [NoPerm])
        | addMaxId th id => simp only [exec1] at et; cases et; exact h
        | sync => obtain ⟨t', a, _, _, _, _, b, _⟩ := sync_inv hi; simp only [exec1] at et; rw [a] at et; cases et; rw [b]; exact h
        | reset i a =>
          obtain ⟨t', e', _, _, b, _⟩ := reset_inv hi i a
          simp only [exec1] at et; rw [e'] at et; cases et; rw [b]; cases a <;> simp [h]
        | addForce th id v =>
          obtain ⟨tl, sh, _, sm, hid⟩ := inv_ensure hi id th
          simp only [exec1, addForce] at et
          split at et <;> cases et
          exact sm.pfu.trans h
        | addTorque th id v =>
          obtain ⟨tl, sh, _, sm, hid⟩ := inv_ensure hi id th
          simp only [exec1, addTorque] at et
          split at et <;> cases et
          exact sm.pfu.trans h
        | addMove th id v =>
          obtain ⟨tl, sh, _, sm, hid⟩ := inv_ensure hi id th
          simp only [exec1, addMove] at et
          split at et <;> cases et
          exact sm.pfu.trans h
        | addRot th id v =>
          obtain ⟨tl, sh, _, sm, hid⟩ := inv_ensure hi id th
          simp only [exec1, addRot] at et
          split at et <;> cases et
          exact sm.pfu.trans h
      obtain ⟨t, et, it, nt, pt⟩ := hs
      simp only [exec, et] at e
      exact ih t s' _ it (fun x hx => by rw [nt]; exact hv x (by simp [hx])) (fun x hx => hn x (by simp [hx])) pt e
  have hz := h2.unusedP (pu.trans (hu ops _ s1 _ (inv_init n) hv hp rfl e1))
  refine ⟨s2, by rw [exec_append, e1]; simp only [exec, exec1, e2], fun id => ?_⟩
  obtain ⟨a, b, c, d, e, f⟩ := reads_ok h2 sy id
  obtain ⟨u, v, _, _⟩ := spec_of_next id ops
  exact ⟨by rw [a, u, hz.1 id, add_zero], by rw [b, v, hz.2 id, add_zero]⟩

/-- a history of two threads with growth, a reset and permanent force, over the integers -/
def exOps : List (Op Int) :=
  [.addForce 0 3 5, .reset 1 false, .addForce 1 250 7, .addForce 0 250 2, .addTorque 1 2 9, .setPermForce 250 100 (some 0),
   .addMaxId 1 900, .addForce 1 2 1]

example : ∀ o ∈ exOps, Valid 2 o := by intro o ho; simp [exOps] at ho; rcases ho with rfl|rfl|rfl|rfl|rfl|rfl|rfl|rfl <;> simp [Valid]
example : forceSpec 250 exOps = 9 ∧ forceSpec 3 exOps = 0 := by decide
example : ((exec (FC.init 2) (exOps ++ [.sync])).bind (fun s => getForce s 250)) = .ok 109 := by decide +kernel

/-! ### C12 -/

/-- C12: at every moment of every history, either all synchronised reads throw, or each of them returns
the up-to-date value (sum since the last reset plus permanent part). -/
theorem C12_never_stale (n : Nat) (ops : List (Op V)) (hv : ∀ o ∈ ops, Valid n o) :
    ∃ s, exec (FC.init n) ops = .ok s ∧
      ((∀ id, getForce s id = .throws ∧ getTorque s id = .throws ∧ getMove s id = .throws ∧ getRot s id = .throws) ∨
       (∀ id, ∃ p q, getPermForce s id = .ok p ∧ getPermTorque s id = .ok q ∧
          getForce s id = .ok (forceSpec id ops + p) ∧ getTorque s id = .ok (torqueSpec id ops + q) ∧
          getMove s id = .ok (moveSpec id ops) ∧ getRot s id = .ok (rotSpec id ops))) := by
  obtain ⟨s, e, h, _⟩ := exec_inv ops (FC.init n) _ (inv_init n) hv
  refine ⟨s, e, ?_⟩
  cases hs : s.synced with
  | false =>
    left; intro id
    obtain ⟨a, b, c, d, _⟩ := reads_throw hs id
    exact ⟨a, b, c, d⟩
  | true =>
    right; intro id
    obtain ⟨a, b, c, d, e, f⟩ := reads_ok h hs id
    obtain ⟨u, v, w, x⟩ := spec_of_next id ops
    exact ⟨_, _, e, f, by rw [a, u], by rw [b, v], by rw [c, w], by rw [d, x]⟩

/-- C12, the other direction: a read directly after an addition throws (it does not return the old sum). -/
theorem C12_add_then_read_throws (n : Nat) (ops : List (Op V)) (hv : ∀ o ∈ ops, Valid n o) (th id : Nat) (v : V)
    (hth : th < n) (o : Op V)
    (ho : o = .addForce th id v ∨ o = .addTorque th id v ∨ o = .addMove th id v ∨ o = .addRot th id v) :
    ∃ s, exec (FC.init n) (ops ++ [o]) = .ok s ∧
      ∀ j, getForce s j = .throws ∧ getTorque s j = .throws ∧ getMove s j = .throws ∧ getRot s j = .throws := by
  obtain ⟨s, e, h, hn⟩ := exec_inv ops (FC.init n) _ (inv_init n) hv
  have hth' : th < s.nThreads := by rw [hn]; exact hth
  have k : ∃ s', exec1 s o = .ok s' ∧ s'.synced = false := by
    rcases ho with rfl | rfl | rfl | rfl
    · obtain ⟨s', a, _, _, b, _⟩ := addForce_inv h hth' id v; exact ⟨s', a, b⟩
    · obtain ⟨s', a, _, _, b, _⟩ := addTorque_inv h hth' id v; exact ⟨s', a, b⟩
    · obtain ⟨s', a, _, _, b, _⟩ := addMove_inv h hth' id v; exact ⟨s', a, b⟩
    · obtain ⟨s', a, _, _, b, _⟩ := addRot_inv h hth' id v; exact ⟨s', a, b⟩
  obtain ⟨s', e', hs⟩ := k
  refine ⟨s', by rw [exec_append, e]; simp only [exec, e'], fun j => ?_⟩
  obtain ⟨a, b, c, d, _⟩ := reads_throw hs j
  exact ⟨a, b, c, d⟩

example : ((exec (FC.init 2) exOps).bind (fun s => getForce s 250)) = .throws := by decide +kernel

/-! ### C13 -/

/-- permanent parts held by the container after a history with close ids -/
theorem perm_sim : ∀ (ops : List (Op V)) (s : FC V) (g : Sums V) (P Q : Nat → V) (B : List Nat), Inv s g →
    (∀ o ∈ ops, Valid s.nThreads o) →
    (∀ id, s.permForce.at' id = P id) → (∀ id, s.permTorque.at' id = Q id) →
    (∀ id, id ∉ B → P id = 0 ∧ Q id = 0) →
    (∀ i ∈ B ++ permIds ops, ∀ j ∈ permIds ops, i < j + 100) →
    ∃ s', exec s ops = .ok s' ∧
      (∀ id, s'.permForce.at' id = ops.foldl (permStep id) (P id)) ∧
      (∀ id, s'.permTorque.at' id = ops.foldl (permTorqueStep id) (Q id))
  | [], s, g, P, Q, B, h, _, hP, hQ, _, _ => ⟨s, rfl, hP, hQ⟩
  | o :: os, s, g, P, Q, B, h, hv, hP, hQ, hB, hc => by
    have hvo := hv o (by simp)
    have go : ∀ (s1 : FC V) (P' Q' : Nat → V) (B' : List Nat), exec1 s o = .ok s1 →
        (∀ id, s1.permForce.at' id = P' id) → (∀ id, s1.permTorque.at' id = Q' id) →
        (∀ id, id ∉ B' → P' id = 0 ∧ Q' id = 0) →
        (∀ i ∈ B' ++ permIds os, ∀ j ∈ permIds os, i < j + 100) →
        (∀ id, P' id = permStep id (P id) o) →
        (∀ id, Q' id = permTorqueStep id (Q id) o) →
        ∃ s', exec s (o :: os) = .ok s' ∧
          (∀ id, s'.permForce.at' id = (o :: os).foldl (permStep id) (P id)) ∧
          (∀ id, s'.permTorque.at' id = (o :: os).foldl (permTorqueStep id) (Q id)) := by
      intro s1 P' Q' B' e1 hP' hQ' hB' hc' eP eQ
      obtain ⟨t, et, it, nt⟩ := exec1_inv h hvo
      rw [e1] at et; cases et
      obtain ⟨s', e', a, b⟩ := perm_sim os s1 _ P' Q' B' it (fun x hx => by rw [nt]; exact hv x (by simp [hx])) hP' hQ' hB' hc'
      refine ⟨s', by simp only [exec, e1, e'], fun id => ?_, fun id => ?_⟩
      · rw [a id, eP id]; rfl
      · rw [b id, eQ id]; rfl
    have hsame : ∀ s1 : FC V, exec1 s o = .ok s1 → (∀ j, s1.permForce.at' j = s.permForce.at' j) →
        (∀ j, s1.permTorque.at' j = s.permTorque.at' j) → permIds (o :: os) = permIds os →
        (∀ id, P id = permStep id (P id) o) →
        (∀ id, Q id = permTorqueStep id (Q id) o) → _ :=
      fun s1 e1 a b c eP eQ => go s1 P Q B e1 (fun id => (a id).trans (hP id)) (fun id => (b id).trans (hQ id)) hB
        (by rw [c] at hc; exact hc) eP eQ
    cases o with
    | addForce th id v =>
      obtain ⟨s', a, _, _, _, x, y⟩ := addForce_inv h hvo id v
      exact hsame s' a x y rfl (fun _ => rfl) (fun _ => rfl)
    | addTorque th id v =>
      obtain ⟨s', a, _, _, _, x, y⟩ := addTorque_inv h hvo id v
      exact hsame s' a x y rfl (fun _ => rfl) (fun _ => rfl)
    | addMove th id v =>
      obtain ⟨s', a, _, _, _, x, y⟩ := addMove_inv h hvo id v
      exact hsame s' a x y rfl (fun _ => rfl) (fun _ => rfl)
    | addRot th id v =>
      obtain ⟨s', a, _, _, _, x, y⟩ := addRot_inv h hvo id v
      exact hsame s' a x y rfl (fun _ => rfl) (fun _ => rfl)
    | addMaxId th id => exact hsame _ rfl (fun _ => rfl) (fun _ => rfl) rfl (fun _ => rfl) (fun _ => rfl)
    | sync =>
      obtain ⟨s', a, _, _, _, _, _, _, x, y⟩ := sync_inv h
      exact hsame s' a x y rfl (fun _ => rfl) (fun _ => rfl)
    | reset i all =>
      obtain ⟨s', a, _, _, _, _, x, y⟩ := reset_inv h i all
      cases all with
      | false => exact hsame s' a x y rfl (fun _ => rfl) (fun _ => rfl)
      | true =>
        exact go s' (fun _ => 0) (fun _ => 0) B a x y (fun _ _ => ⟨rfl, rfl⟩) hc (fun _ => rfl) (fun _ => rfl)
    | setPermForce id v ob =>
      cases ob with
      | none => exact absurd rfl hvo
      | some gb =>
        obtain ⟨s', a, _, _, _, _, x, y⟩ := setPermForce_inv h id v gb
        have near : ∀ j, ¬ j < max id gb + 100 → P j = 0 ∧ Q j = 0 := by
          intro j hj
          apply hB
          intro hm
          have := hc j (by simp [hm]) id (by simp [permIds])
          omega
        refine go s' (fun j => if j = id then v else P j) Q (id :: B) a ?_ ?_ ?_ ?_ (fun _ => rfl) (fun _ => rfl)
        · intro j
          rw [x j]
          by_cases e : j = id
          · simp [e]
          · simp only [e, if_false]
            by_cases e2 : j < max id gb + 100
            · simp [e2, hP j]
            · simp [e2, (near j e2).1]
        · intro j
          rw [y j]
          by_cases e2 : j < max id gb + 100
          · simp [e2, hQ j]
          · simp [e2, (near j e2).2]
        · intro j hj
          simp only [List.mem_cons, not_or] at hj
          simp only [hj.1, if_false]
          exact hB j hj.2
        · intro i hi j hj
          apply hc i _ j (by simp [permIds, hj])
          simp only [permIds, List.mem_append, List.mem_cons] at hi ⊢
          rcases hi with (hi | hi) | hi
          · exact Or.inr (Or.inl hi)
          · exact Or.inl hi
          · exact Or.inr (Or.inr hi)
    | setPermTorque id v ob =>
      cases ob with
      | none => exact absurd rfl hvo
      | some gb =>
        obtain ⟨s', a, _, _, _, _, x, y⟩ := setPermTorque_inv h id v gb
        have near : ∀ j, ¬ j < max id gb + 100 → P j = 0 ∧ Q j = 0 := by
          intro j hj
          apply hB
          intro hm
          have := hc j (by simp [hm]) id (by simp [permIds])
          omega
        refine go s' P (fun j => if j = id then v else Q j) (id :: B) a ?_ ?_ ?_ ?_ (fun _ => rfl) (fun _ => rfl)
        · intro j
          rw [y j]
          by_cases e2 : j < max id gb + 100
          · simp [e2, hP j]
          · simp [e2, (near j e2).1]
        · intro j
          rw [x j]
          by_cases e : j = id
          · simp [e]
          · simp only [e, if_false]
            by_cases e2 : j < max id gb + 100
            · simp [e2, hQ j]
            · simp [e2, (near j e2).2]
        · intro j hj
          simp only [List.mem_cons, not_or] at hj
          simp only [hj.1, if_false]
          exact hB j hj.2
        · intro i hi j hj
          apply hc i _ j (by simp [permIds, hj])
          simp only [permIds, List.mem_append, List.mem_cons] at hi ⊢
          rcases hi with (hi | hi) | hi
          · exact Or.inr (Or.inl hi)
          · exact Or.inl hi
          · exact Or.inr (Or.inr hi)

/-- C13, partial: if the access outside the vector is survived and all bodies with permanent forces have ids
closer than 100 to each other, then after a synchronisation permF returns what was set last for this body
and the force includes it.  Missing: arbitrary ids and memory safety, both of which fail (below). -/
theorem C13_perm_stays_partial (n : Nat) (ops : List (Op V)) (hv : ∀ o ∈ ops, Valid n o)
    (hc : ∀ i ∈ permIds ops, ∀ j ∈ permIds ops, i < j + 100) :
    ∃ s, exec (FC.init n) (ops ++ [.sync]) = .ok s ∧ ∀ id,
      getPermForce s id = .ok (permSpec id ops) ∧ getPermTorque s id = .ok (permTorqueSpec id ops) ∧
      getForce s id = .ok (forceSpec id ops + permSpec id ops) ∧
      getTorque s id = .ok (torqueSpec id ops + permTorqueSpec id ops) := by
  obtain ⟨s1, e1, h1, n1⟩ := exec_inv ops (FC.init n) _ (inv_init n) hv
  obtain ⟨s1', e1', p, q⟩ := perm_sim ops (FC.init n) _ (fun _ => 0) (fun _ => 0) [] (inv_init n) hv
    (fun _ => rfl) (fun _ => rfl) (fun _ _ => ⟨rfl, rfl⟩) (by simpa using hc)
  rw [e1] at e1'; cases e1'
  obtain ⟨s2, e2, h2, n2, sy, _, _, _, pp, qq⟩ := sync_inv h1
  refine ⟨s2, by rw [exec_append, e1]; simp only [exec, exec1, e2], fun id => ?_⟩
  obtain ⟨a, b, c, d, e, f⟩ := reads_ok h2 sy id
  obtain ⟨u, v, _, _⟩ := spec_of_next id ops
  have hp : s2.permForce.at' id = permSpec id ops := (pp id).trans (p id)
  have hq : s2.permTorque.at' id = permTorqueSpec id ops := (qq id).trans (q id)
  rw [hp] at a e; rw [hq] at b f
  exact ⟨e, f, by rw [a, u], by rw [b, v]⟩

example : ((exec (FC.init 2) (exOps ++ [.sync])).bind (fun s => getPermForce s 250)) = .ok 100 ∧ permSpec 250 exOps = 100 ∧
    permIds exOps = [250] := by decide +kernel

/-- C13 fails: setting the permanent force of body 0 discards the one of body 200, although the access
outside the vector is harmless (yields 0). -/
theorem C13_violated_other_body :
    let ops : List (Op Int) := [.setPermForce 200 7 (some 0), .setPermForce 0 1 (some 0)]
    permSpec 200 ops = 7 ∧
    ((exec (FC.init 1) (ops ++ [.sync])).bind (fun s => getPermForce s 200)) = .ok 0 ∧
    ((exec (FC.init 1) (ops ++ [.sync])).bind (fun s => getForce s 200)) = .ok 0 := by decide +kernel

/-- C13 fails: `setPermF`/`setPermT` access `_maxId[-1]` in every state. -/
theorem C13_violated_memory (s : FC V) (id : Nat) (v : V) :
    setPermForce s id v none = .ub ∧ setPermTorque s id v none = .ub := ⟨rfl, rfl⟩

/-! ### C14 -/

/-- C14, threaded build: after a synchronisation another one changes nothing at all. -/
theorem C14_sync_idempotent (n : Nat) (ops : List (Op V)) (hv : ∀ o ∈ ops, Valid n o) (k : Nat) :
    ∃ s, exec (FC.init n) (ops ++ [.sync]) = .ok s ∧
      exec (FC.init n) (ops ++ [.sync] ++ List.replicate k .sync) = .ok s := by
  obtain ⟨s1, e1, h1, n1⟩ := exec_inv ops (FC.init n) _ (inv_init n) hv
  obtain ⟨s2, e2, h2, n2, sy, am, _⟩ := sync_inv h1
  have hs : sync s2 = .ok s2 := by simp [sync, am, sy]
  have h1' : exec (FC.init n) (ops ++ [.sync]) = .ok s2 := by rw [exec_append, e1]; simp only [exec, exec1, e2]
  refine ⟨s2, h1', ?_⟩
  rw [exec_append, h1']
  induction k with
  | zero => rfl
  | succ k ih => simp only [List.replicate_succ, exec, exec1, hs]; exact ih

/-- C14 fails in the build without threads: every `sync` adds the permanent force once more. -/
theorem C14_violated_serial :
    let st := (Serial.setPermForce (Serial.SC.init : Serial.SC Int) 0 5).bind Serial.sync
    st.bind (fun s => Serial.getForce s 0) = .ok 5 ∧
    (st.bind Serial.sync).bind (fun s => Serial.getForce s 0) = .ok 10 := by decide +kernel

/-- C14 in the build without threads holds while no permanent force is used: missing is exactly that case. -/
theorem C14_serial_partial (s : Serial.SC V) (hp : s.permForceUsed = false) :
    ∃ s', Serial.sync s = .ok s' ∧ Serial.sync s' = .ok s' ∧ s'.permForceUsed = false := by
  by_cases hm : s.maxId > 0
  · have hpu : (Serial.ensureSize s s.maxId).permForceUsed = false := by
      simp only [Serial.ensureSize]; split <;> exact hp
    refine ⟨{ Serial.ensureSize s s.maxId with maxId := 0 }, ?_, ?_, hpu⟩
    · simp [Serial.sync, hm, hpu]
    · simp [Serial.sync, hpu]
  · exact ⟨s, by simp [Serial.sync, hm, hp], by simp [Serial.sync, hm, hp], hp⟩

/-! ### C15 -/

/-- the state in which all threads are about to add `jobs` -/
def start (s : FC V) (jobs : Nat → List (Nat × V)) : RS V := ⟨s, jobs, fun _ => .idle⟩

/-- C15 fails: threads 0 and 1 add to bodies 0 and 500 of an empty container.  Thread 0 reads `size`, thread 1
makes its whole addition, then thread 0 writes the smaller size: after synchronisation body 500 reads zero. -/
theorem C15_violated :
    let jobs : Nat → List (Nat × Int) := fun t => if t = 0 then [(0, 3)] else [(500, 7)]
    let sched := [0, 0, 1, 1, 1, 1, 1, 1, 0, 0, 0, 0]
    ((rrun false (start (FC.init 2) jobs) sched).bind (fun R =>
      if R.pc 0 = .idle ∧ R.pc 1 = .idle ∧ R.jobs 0 = [] ∧ R.jobs 1 = [] then
        (sync R.s).bind (fun s => getForce s 500) else .throws)) = .ok 0 ∧
    ((rrun false (start (FC.init 2) jobs) sched).bind (fun R => (sync R.s).bind (fun s => getForce s 0))) = .ok 3 := by
  decide +kernel

/-- C15, partial: if reading, comparing and writing the shared size were one indivisible access, then under
every schedule of every number of threads, each with any list of additions, once all threads have finished
nothing is lost.  Missing: the schedules that separate the read from the write (see `C15_violated`). -/
theorem C15_growth_partial (n : Nat) (ops : List (Op V)) (hv : ∀ o ∈ ops, Valid n o) (jobs : Nat → List (Nat × V))
    (sched : List Nat) (hs : ∀ t ∈ sched, t < n) :
    ∃ s R, exec (FC.init n) ops = .ok s ∧ rrun true (start s jobs) sched = .ok R ∧
      ((∀ t, t < n → R.pc t = .idle ∧ R.jobs t = []) → ∃ s', sync R.s = .ok s' ∧ ∀ id, ∃ p,
        getPermForce s' id = .ok p ∧
        getForce s' id = .ok (forceSpec id ops + sumTo (fun t => jobSum (jobs t) id) n + p)) := by
  obtain ⟨s, e, h, hn⟩ := exec_inv ops (FC.init n) _ (inv_init n) hv
  have hn : s.nThreads = n := hn
  have hi := rinv_init h jobs
  rw [hn] at hi
  obtain ⟨R, er, hr⟩ := rrun_inv sched (start s jobs) hi hs
  refine ⟨s, R, e, er, fun hdone => ?_⟩
  have hf := rinv_final hr (fun t ht => (hdone t ht).1) (fun t ht => (hdone t ht).2)
  obtain ⟨s', es, h', _, sy, _⟩ := sync_inv hf
  refine ⟨s', es, fun id => ?_⟩
  obtain ⟨a, _, _, _, p, _⟩ := reads_ok h' sy id
  refine ⟨_, p, ?_⟩
  rw [a]
  show Res.ok ((ops.foldl next Sums.zero).F id + sumTo (fun t => jobSum (jobs t) id) n + _) = _
  rw [(spec_of_next id ops).1]

/-- the same schedule with the indivisible access loses nothing -/
example :
    let jobs : Nat → List (Nat × Int) := fun t => if t = 0 then [(0, 3)] else [(500, 7)]
    ((rrun true (start (FC.init 2) jobs) [0, 0, 1, 1, 1, 1, 1, 1, 0, 0, 0, 0]).bind (fun R =>
      if R.pc 0 = .idle ∧ R.pc 1 = .idle ∧ R.jobs 0 = [] ∧ R.jobs 1 = [] then
        (sync R.s).bind (fun s => getForce s 500) else .throws)) = .ok 7 := by decide +kernel

/-! ### C61 reads without synchronisation (`O.forces.f(id)`, default `sync=False`) -/

/-- C61, partial: while no permanent force is used, the read without synchronisation returns the up-to-date
sum at every moment.  Missing: states with permanent forces (see `C61_violated`). -/
theorem C61_single_read_partial (n : Nat) (ops : List (Op V)) (hv : ∀ o ∈ ops, Valid n o) :
    ∃ s, exec (FC.init n) ops = .ok s ∧ (s.permForceUsed = false → ∀ id,
      getForceSingle s id = .ok (forceSpec id ops) ∧ getTorqueSingle s id = .ok (torqueSpec id ops)) ∧
      ∀ id, getMoveSingle s id = .ok (moveSpec id ops) ∧ getRotSingle s id = .ok (rotSpec id ops) := by
  obtain ⟨s, e, h, _⟩ := exec_inv ops (FC.init n) _ (inv_init n) hv
  refine ⟨s, e, fun hp id => ?_, fun id => ?_⟩
  · obtain ⟨a, b, _, _⟩ := sumSingle_eq h id
    obtain ⟨u, v, _, _⟩ := spec_of_next id ops
    simp [getForceSingle, getTorqueSingle, hp, a, b, u, v]
  · obtain ⟨_, _, a, b⟩ := sumSingle_eq h id
    obtain ⟨_, _, u, v⟩ := spec_of_next id ops
    simp [getMoveSingle, getRotSingle, a, b, u, v]

example : ((exec (FC.init 2) (exOps.take 5)).bind (fun s => getForceSingle s 250)) = .ok 9 := by decide +kernel

/-- C61 fails: with a permanent force on body 0, reading the force of body 150 reads outside the vector. -/
theorem C61_violated :
    ((exec (FC.init 1) [Op.addForce 0 150 (4 : Int), .setPermForce 0 1 (some 0)]).bind (fun s => getForceSingle s 150)) = .ub := by
  decide +kernel

/-! ### C62 totals without synchronisation check (used for clumps) -/

/-- C62, threaded build: right after a synchronisation the unchecked reads return force and torque. -/
theorem C62_unsynced_partial (n : Nat) (ops : List (Op V)) (hv : ∀ o ∈ ops, Valid n o) :
    ∃ s, exec (FC.init n) (ops ++ [.sync]) = .ok s ∧ ∀ id, id < s.size →
      getForceUnsynced s id = getForce s id ∧ getTorqueUnsynced s id = getTorque s id := by
  obtain ⟨s1, e1, h1, n1⟩ := exec_inv ops (FC.init n) _ (inv_init n) hv
  obtain ⟨s2, e2, h2, n2, sy, _⟩ := sync_inv h1
  refine ⟨s2, by rw [exec_append, e1]; simp only [exec, exec1, e2], fun id hid => ?_⟩
  simp [getForceUnsynced, getTorqueUnsynced, getForce, getTorque, readSynced, sy, hid]

/-- C62 fails in the build without threads: the torque read returns the force. -/
theorem C62_violated_serial :
    let st := (Serial.addForce (Serial.SC.init : Serial.SC Int) 0 5).bind (fun s => Serial.addTorque s 0 8)
    st.bind (fun s => Serial.getTorque s 0) = .ok 8 ∧ st.bind (fun s => Serial.getTorqueUnsynced s 0) = .ok 5 := by
  decide +kernel

/-! ### C63 prescribed displacements -/

/-- C63: after any history and a synchronisation the displacement and rotation increments of a body are the
sums of what was added since the last reset; after a reset they are zero. -/
theorem C63_move_rot (n : Nat) (ops : List (Op V)) (hv : ∀ o ∈ ops, Valid n o) :
    ∃ s, exec (FC.init n) (ops ++ [.sync]) = .ok s ∧ ∀ id,
      getMove s id = .ok (moveSpec id ops) ∧ getRot s id = .ok (rotSpec id ops) := by
  obtain ⟨s1, e1, h1, n1⟩ := exec_inv ops (FC.init n) _ (inv_init n) hv
  obtain ⟨s2, e2, h2, n2, sy, _⟩ := sync_inv h1
  refine ⟨s2, by rw [exec_append, e1]; simp only [exec, exec1, e2], fun id => ?_⟩
  obtain ⟨_, _, c, d, _, _⟩ := reads_ok h2 sy id
  obtain ⟨_, _, w, x⟩ := spec_of_next id ops
  exact ⟨by rw [c, w], by rw [d, x]⟩

example : ((exec (FC.init 2) [.addMove 1 4 (6 : Int), .addMove 0 4 1, .addRot 0 4 2, .sync]).bind (fun s => getMove s 4)) = .ok 7 ∧
    ((exec (FC.init 2) [.addMove 1 4 (6 : Int), .sync, .reset 0 false, .addForce 0 4 1, .sync]).bind (fun s => getMove s 4)) = .ok 0 := by
  decide +kernel

end Verif.Forces
