import Verif.Dist.Model
import Mathlib.Algebra.BigOperators.Group.Finset.Basic

/-!
What a run should give, said without scenes, processes, lists of interactions or the order in which contacts are stored: all pairs of
bodies are looked at in every iteration.
-/

namespace Verif.Dist

/-- States of all bodies and contacts of all pairs, each contact as seen from its first body. -/
structure World (M R C : Type) where
  m : ℕ → M
  r : ℕ → R
  con : ℕ → ℕ → Option C

/-- What does not change: the bodies that exist, their constants, permanent forces on them and the time step. -/
structure Setup (K F T : Type) where
  ids : Finset ℕ
  k : ℕ → K
  perm : ℕ → F
  dt : T

section
variable {K M R C F T : Type} [AddCommMonoid F]

/-- The law for the pair `i`, `j`. -/
def pairLaw (p : Phys K M R C F T) (u : Setup K F T) (x : World M R C) (i j : ℕ) : Option C × F × F :=
  p.law u.dt (u.k i) (x.m i) (x.r i) (u.k j) (x.m j) (x.r j) (x.con i j)

/-- The force on `i` by all other bodies. -/
def totalForce (p : Phys K M R C F T) (u : Setup K F T) (x : World M R C) (i : ℕ) : F :=
  ∑ j ∈ u.ids.erase i, (pairLaw p u x i j).2.1

/-- One iteration. -/
def advance (p : Phys K M R C F T) (u : Setup K F T) (x : World M R C) : World M R C where
  m i := (p.newton u.dt (totalForce p u x i + u.perm i) (u.k i) (x.m i) (x.r i)).1
  r i := (p.newton u.dt (totalForce p u x i + u.perm i) (u.k i) (x.m i) (x.r i)).2
  con i j := (pairLaw p u x i j).1

/-- Several iterations. -/
def evolve (p : Phys K M R C F T) (u : Setup K F T) : ℕ → World M R C → World M R C
  | 0, x => x
  | q + 1, x => evolve p u q (advance p u x)

/-- The two bodies do not act on each other. -/
def Apart (p : Phys K M R C F T) (u : Setup K F T) (x : World M R C) (i j : ℕ) : Prop :=
  pairLaw p u x i j = (none, 0, 0)

/-- The law treats both bodies alike: `swap` is the contact seen from the other body. -/
structure EvenHanded (p : Phys K M R C F T) (swap : C → C) : Prop where
  twice : ∀ c, swap (swap c) = c
  law : ∀ t k1 m1 r1 k2 m2 r2 c, p.law t k2 m2 r2 k1 m1 r1 (c.map swap) =
    ((p.law t k1 m1 r1 k2 m2 r2 c).1.map swap, (p.law t k1 m1 r1 k2 m2 r2 c).2.2, (p.law t k1 m1 r1 k2 m2 r2 c).2.1)

/-- The law depends on the exchanged part of the states only. -/
def ReadsMotion (p : Phys K M R C F T) : Prop :=
  ∀ t k1 m1 r1 r1' k2 m2 r2 r2' c, p.law t k1 m1 r1 k2 m2 r2 c = p.law t k1 m1 r1' k2 m2 r2' c

/-- The forces do not depend on the history of the contact. -/
def Forgetful (p : Phys K M R C F T) : Prop :=
  ∀ t k1 m1 r1 k2 m2 r2 c c', (p.law t k1 m1 r1 k2 m2 r2 c).2 = (p.law t k1 m1 r1 k2 m2 r2 c').2

/-- The motion of a body does not depend on the part of its state that is not exchanged. -/
def MovesByMotion (p : Phys K M R C F T) : Prop :=
  ∀ t f k m r r', (p.newton t f k m r).1 = (p.newton t f k m r').1

/-- No engine changes the time step. -/
def ConstantDt (p : Phys K M R C F T) : Prop := ∀ s, p.stepper s = s.dt

/-- The list of interactions has one for the two bodies. -/
def Listed (l : List (Intr C)) (i j : ℕ) : Prop := ∃ I ∈ l, (I.id1 = i ∧ I.id2 = j) ∨ (I.id1 = j ∧ I.id2 = i)

/-- Every pair of bodies has one interaction at most, and no body one with itself. -/
def ProperList (l : List (Intr C)) : Prop :=
  l.Pairwise (fun I J => ¬ ((I.id1 = J.id1 ∧ I.id2 = J.id2) ∨ (I.id1 = J.id2 ∧ I.id2 = J.id1))) ∧ ∀ I ∈ l, I.id1 ≠ I.id2

/-- The contact of the interaction, as seen from `i`, is the one of the world. -/
def SameContact (swap : C → C) (x : World M R C) (l : List (Intr C)) (i j : ℕ) : Prop :=
  (∀ I ∈ l, I.id1 = i → I.id2 = j → I.con = x.con i j) ∧ (∀ I ∈ l, I.id1 = j → I.id2 = i → I.con.map swap = x.con i j) ∧
    (¬ Listed l i j → x.con i j = none)

/-- A scene shows the world as far as motions are concerned; the body `i` is in the subdomain `own i`. -/
structure ShowsMotion (u : Setup K F T) (own : ℕ → ℕ) (x : World M R C) (s : Scene K M R C F T) : Prop where
  rank : s.rank = 0
  dt : s.dt = u.dt
  bodies : ∀ i ∈ u.ids, ∃ r, s.body i = some ⟨own i, u.k i, x.m i, r⟩
  others : ∀ i, i ∉ u.ids → s.body i = none
  perm : ∀ i ∈ u.ids, own i = 0 → s.perm i = u.perm i
  proper : ProperList s.intrs

/-- A scene shows the world: motions, other parts of states, permanent forces, contacts. -/
structure Shows (swap : C → C) (u : Setup K F T) (own : ℕ → ℕ) (x : World M R C) (s : Scene K M R C F T) : Prop where
  motion : ShowsMotion u own x s
  bodies : ∀ i ∈ u.ids, s.body i = some ⟨own i, u.k i, x.m i, x.r i⟩
  perm : ∀ i ∈ u.ids, s.perm i = u.perm i
  contacts : ∀ i ∈ u.ids, ∀ j ∈ u.ids, j ≠ i → SameContact swap x s.intrs i j

/-- A contact is the same from both sides. -/
def TwoSided (swap : C → C) (x : World M R C) : Prop := ∀ i j, x.con j i = (x.con i j).map swap

/-- The lists of interactions have every pair of bodies that act on each other (C114 is about this). -/
def Complete (p : Phys K M R C F T) (u : Setup K F T) (own : ℕ → ℕ) (n : ℕ) (x : World M R C) (ss : ℕ → Scene K M R C F T) : Prop :=
  ∀ w < n, ∀ i ∈ u.ids, own i = w → ∀ j ∈ u.ids, j ≠ i → (w ≠ 0 ∨ own j = 0) → ¬ Listed (ss w).intrs i j → Apart p u x i j

/-- The same for an ordinary run. -/
def SerialComplete (p : Phys K M R C F T) (u : Setup K F T) (x : World M R C) (s : Scene K M R C F T) : Prop :=
  ∀ i ∈ u.ids, ∀ j ∈ u.ids, j ≠ i → ¬ Listed s.intrs i j → Apart p u x i j

/-- What is asked of the lists a split makes (C112-C115 are about this), for bodies `i` of the process `own i` and processes `0, …, n-1`. -/
structure GoodPlan (u : Setup K F T) (own : ℕ → ℕ) (n : ℕ) (pl : Plan) (s : Scene K M R C F T) : Prop where
  owner : ∀ i ∈ u.ids, own i < n
  pairs : ∀ w < n, ∀ ab ∈ pl.pairs w, ab.1 ≠ ab.2 ∧ (s.body ab.1).isSome ∧ (s.body ab.2).isSome ∧
    (w ≠ 0 → (own ab.1 = w ∨ ab.1 ∈ pl.keep w) ∧ (own ab.2 = w ∨ ab.2 ∈ pl.keep w))
  masterPairs : ∀ ab ∈ pl.pairs 0, own ab.1 = 0 ∧ own ab.2 = 0
  /-- Bodies that are in contact with a body of a worker are kept by this worker. -/
  keeps : ∀ I ∈ s.intrs, I.con.isSome → (own I.id1 ≠ 0 → own I.id2 ≠ own I.id1 → I.id2 ∈ pl.keep (own I.id1)) ∧
    (own I.id2 ≠ 0 → own I.id1 ≠ own I.id2 → I.id1 ∈ pl.keep (own I.id2))
  /-- Neighbours agree about the bodies whose states they exchange, which are bodies of the sender and are kept by the receiver. -/
  lists : ∀ w < n, w ≠ 0 → ∀ v ∈ pl.comm.nbr w, v < n ∧ v ≠ w ∧ pl.comm.mir w v = pl.comm.inter v w ∧
    ∀ i ∈ pl.comm.inter v w, i ∈ u.ids ∧ own i = v ∧ i ∈ pl.keep w
  /-- A worker is sent the states of the remote bodies its own bodies have interactions with. -/
  ghosts : ∀ w < n, w ≠ 0 → ∀ i j, own i = w → own j ≠ w → Listed (split pl s w).intrs i j →
    own j ∈ pl.comm.nbr w ∧ j ∈ pl.comm.mir w (own j)
  /-- The master listens to the workers whose bodies have interactions with its own. -/
  report : ∀ w < n, w ≠ 0 → ∀ i j, own i = w → own j = 0 → Listed (split pl s w).intrs i j → w ∈ pl.comm.nbr 0
  nodup : (pl.comm.nbr 0).Nodup ∧ ∀ w ∈ pl.comm.nbr 0, w ≠ 0 ∧ w < n ∧ (pl.comm.mir w 0).Nodup

/-- The scene that is split has no interactions of bodies of the master with bodies of workers. -/
def Clean (own : ℕ → ℕ) (s : Scene K M R C F T) : Prop := ∀ I ∈ s.intrs, own I.id1 = 0 ↔ own I.id2 = 0

/-- Only bodies of the master have permanent forces. -/
def PermOnMaster (u : Setup K F T) (own : ℕ → ℕ) : Prop := ∀ i ∈ u.ids, own i ≠ 0 → u.perm i = 0

end

end Verif.Dist
