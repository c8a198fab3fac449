import Verif.Forces.Model
/-! Helper lemmas: the invariant of the force container and its preservation. -/
namespace Verif.Forces
open Verif

variable {V : Type} [AddCommMonoid V]

theorem sumTo_congr {f g : Nat → V} : ∀ n, (∀ i, i < n → f i = g i) → sumTo f n = sumTo g n
  | 0, _ => rfl
  | n + 1, h => by
    simp only [sumTo]
    rw [sumTo_congr n (fun i hi => h i (by omega)), h n (by omega)]

theorem sumTo_zero : ∀ n, sumTo (fun _ => (0 : V)) n = 0
  | 0 => rfl
  | n + 1 => by simp only [sumTo]; rw [sumTo_zero n, add_zero]

/-- adding to one summand adds to the sum -/
theorem sumTo_add_one (f : Nat → V) (t : Nat) (v : V) :
    ∀ n, t < n → sumTo (fun i => if i = t then f i + v else f i) n = sumTo f n + v
  | 0, h => by omega
  | n + 1, h => by
    simp only [sumTo]
    by_cases ht : n = t
    · subst ht
      rw [sumTo_congr n (g := f) (fun i hi => by simp [Nat.ne_of_lt hi])]
      simp only [if_pos]
      rw [add_assoc]
    · rw [sumTo_add_one f t v n (by omega), if_neg ht, add_assoc, add_comm v, ← add_assoc]

def Arr.WF (a : Arr V) : Prop := ∀ i, a.len ≤ i → a.at' i = 0

theorem Arr.resize_at_grow {a : Arr V} (h : a.WF) {n : Nat} (hn : a.len ≤ n) (i : Nat) :
    (a.resize n).at' i = a.at' i := by
  simp only [Arr.resize]
  split
  · rfl
  · exact (h i (by omega)).symm

theorem Arr.resize_wf (a : Arr V) (n : Nat) : (a.resize n).WF := by
  intro i hi
  simp only [Arr.resize] at hi ⊢
  rw [if_neg (by omega)]

@[simp] theorem Arr.resize_len (a : Arr V) (n : Nat) : (a.resize n).len = n := rfl

theorem Arr.empty_wf : (Arr.empty : Arr V).WF := fun _ _ => rfl

@[simp] theorem fset_same {α : Type} (f : Nat → α) (t : Nat) (x : α) : fset f t x t = x := by simp [fset]
theorem fset_other {α : Type} (f : Nat → α) {t i : Nat} (x : α) (h : i ≠ t) : fset f t x i = f i := by
  simp [fset, h]

/-- shape of one quantity: thread arrays have the recorded length -/
structure CI (c : Chan V) (n : Nat) (sz : Nat → Nat) (tl : Nat) : Prop where
  dlen : ∀ th, th < n → (c.data th).len = sz th
  dwf : ∀ th, th < n → (c.data th).WF
  twf : c.tot.WF
  tlen : c.tot.len = tl

/-- sum of the thread arrays -/
def csum (c : Chan V) (n id : Nat) : V := sumTo (fun th => (c.data th).at' id) n

theorem CI.resizeT {c : Chan V} {n : Nat} {sz : Nat → Nat} {tl : Nat} (h : CI c n sz tl) {m t : Nat}
    : CI (c.resizeT m t) n (fset sz t m) tl where
  dlen th hth := by
    by_cases e : th = t
    · subst e; simp [Chan.resizeT]
    · simp [Chan.resizeT, fset_other _ _ e, h.dlen th hth]
  dwf th hth := by
    by_cases e : th = t
    · subst e; simp only [Chan.resizeT, fset_same]; exact Arr.resize_wf _ _
    · simp only [Chan.resizeT, fset_other _ _ e]; exact h.dwf th hth
  twf := h.twf
  tlen := h.tlen

theorem CI.resizeT_at {c : Chan V} {n : Nat} {sz : Nat → Nat} {tl : Nat} (h : CI c n sz tl) {m t : Nat}
    (hm : sz t ≤ m) (th : Nat) (hth : th < n) (id : Nat) :
    ((c.resizeT m t).data th).at' id = (c.data th).at' id := by
  by_cases e : th = t
  · subst e
    simp only [Chan.resizeT, fset_same]
    exact Arr.resize_at_grow (h.dwf th hth) (by rw [h.dlen th hth]; exact hm) id
  · simp only [Chan.resizeT, fset_other _ _ e]

theorem CI.addAt {c : Chan V} {n : Nat} {sz : Nat → Nat} {tl : Nat} (h : CI c n sz tl) {t id : Nat}
    (ht : t < n) (hid : id < sz t) (v : V) :
    ∃ c', c.addAt t id v = .ok c' ∧ CI c' n sz tl ∧ c'.tot = c.tot ∧
      ∀ j, csum c' n j = if j = id then csum c n j + v else csum c n j := by
  have hl : id < (c.data t).len := by rw [h.dlen t ht]; exact hid
  refine ⟨{ c with data := fset c.data t ⟨(c.data t).len, fun j => if j = id then (c.data t).at' j + v else (c.data t).at' j⟩ },
    by simp only [Chan.addAt, Arr.add, if_pos hl], ⟨?_, ?_, h.twf, h.tlen⟩, rfl, ?_⟩
  · intro th hth
    by_cases e : th = t
    · subst e; simp [h.dlen th hth]
    · simp [fset_other _ _ e, h.dlen th hth]
  · intro th hth
    by_cases e : th = t
    · subst e
      simp only [fset_same]
      intro i hi
      simp only at hi ⊢
      rw [if_neg (by omega)]
      exact h.dwf th hth i hi
    · simp only [fset_other _ _ e]; exact h.dwf th hth
  · intro j
    unfold csum
    by_cases hj : j = id
    · subst hj
      rw [if_pos rfl, ← sumTo_add_one _ t v n ht]
      apply sumTo_congr
      intro th _
      by_cases e : th = t
      · subst e; simp
      · simp [fset_other _ _ e, e]
    · rw [if_neg hj]
      apply sumTo_congr
      intro th _
      by_cases e : th = t
      · subst e; simp [hj]
      · simp [fset_other _ _ e]

/-- shape of the container -/
structure Shape (s : FC V) (tl : Nat) : Prop where
  f : CI s.f s.nThreads s.sizeOfThreads tl
  t : CI s.t s.nThreads s.sizeOfThreads tl
  m : CI s.m s.nThreads s.sizeOfThreads tl
  r : CI s.r s.nThreads s.sizeOfThreads tl
  pf : s.permForce.WF
  pt : s.permTorque.WF
  plen : s.permTorque.len = s.permForce.len
  psz : s.permForce.len ≤ s.size
  tsz : ∀ th, th < s.nThreads → s.sizeOfThreads th ≤ s.size
  tl : tl ≤ s.size

/-- all vectors have the common length -/
def Even (s : FC V) (tl : Nat) : Prop :=
  tl = s.size ∧ s.permForce.len = s.size ∧ ∀ th, th < s.nThreads → s.sizeOfThreads th = s.size

/-- what does not depend on lengths -/
structure Same (s s' : FC V) : Prop where
  n : s'.nThreads = s.nThreads
  f : ∀ th, th < s.nThreads → ∀ id, (s'.f.data th).at' id = (s.f.data th).at' id
  t : ∀ th, th < s.nThreads → ∀ id, (s'.t.data th).at' id = (s.t.data th).at' id
  m : ∀ th, th < s.nThreads → ∀ id, (s'.m.data th).at' id = (s.m.data th).at' id
  r : ∀ th, th < s.nThreads → ∀ id, (s'.r.data th).at' id = (s.r.data th).at' id
  tf : ∀ id, s'.f.tot.at' id = s.f.tot.at' id
  tt : ∀ id, s'.t.tot.at' id = s.t.tot.at' id
  tm : ∀ id, s'.m.tot.at' id = s.m.tot.at' id
  tr : ∀ id, s'.r.tot.at' id = s.r.tot.at' id
  pf : ∀ id, s'.permForce.at' id = s.permForce.at' id
  pt : ∀ id, s'.permTorque.at' id = s.permTorque.at' id
  mru : s'.moveRotUsed = s.moveRotUsed
  pfu : s'.permForceUsed = s.permForceUsed
  cnt : s'.syncCount = s.syncCount

omit [AddCommMonoid V] in
theorem Same.refl (s : FC V) : Same s s :=
  ⟨rfl, fun _ _ _ => rfl, fun _ _ _ => rfl, fun _ _ _ => rfl, fun _ _ _ => rfl, fun _ => rfl, fun _ => rfl, fun _ => rfl,
   fun _ => rfl, fun _ => rfl, fun _ => rfl, rfl, rfl, rfl⟩

omit [AddCommMonoid V] in
theorem Same.trans {a b c : FC V} (h : Same a b) (k : Same b c) : Same a c where
  n := k.n.trans h.n
  f th hth id := (k.f th (by rw [h.n]; exact hth) id).trans (h.f th hth id)
  t th hth id := (k.t th (by rw [h.n]; exact hth) id).trans (h.t th hth id)
  m th hth id := (k.m th (by rw [h.n]; exact hth) id).trans (h.m th hth id)
  r th hth id := (k.r th (by rw [h.n]; exact hth) id).trans (h.r th hth id)
  tf id := (k.tf id).trans (h.tf id)
  tt id := (k.tt id).trans (h.tt id)
  tm id := (k.tm id).trans (h.tm id)
  tr id := (k.tr id).trans (h.tr id)
  pf id := (k.pf id).trans (h.pf id)
  pt id := (k.pt id).trans (h.pt id)
  mru := k.mru.trans h.mru
  pfu := k.pfu.trans h.pfu
  cnt := k.cnt.trans h.cnt

theorem csum_congr {c c' : Chan V} {n : Nat} (h : ∀ th, th < n → ∀ id, (c'.data th).at' id = (c.data th).at' id)
    (id : Nat) : csum c' n id = csum c n id := sumTo_congr n (fun th hth => h th hth id)

theorem resize_shape {s : FC V} {tl n th : Nat} (h : Shape s tl) (hn : s.sizeOfThreads th ≤ n) :
    Shape (resize s n th) tl ∧ Same s (resize s n th) := by
  refine ⟨⟨h.f.resizeT, h.t.resizeT, h.m.resizeT, h.r.resizeT, h.pf, h.pt, h.plen, ?_, ?_, ?_⟩,
    ⟨rfl, fun th hth id => h.f.resizeT_at hn th hth id, fun th hth id => h.t.resizeT_at hn th hth id,
     fun th hth id => h.m.resizeT_at hn th hth id, fun th hth id => h.r.resizeT_at hn th hth id, fun _ => rfl, fun _ => rfl,
     fun _ => rfl, fun _ => rfl, fun _ => rfl, fun _ => rfl, rfl, rfl, rfl⟩⟩
  · have := h.psz; simp only [resize]; split <;> omega
  · intro i hi
    have := h.tsz i hi
    simp only [resize]
    by_cases e : i = th
    · subst e; simp only [fset_same]; split <;> omega
    · rw [fset_other _ _ e]; split <;> omega
  · have := h.tl; simp only [resize]; split <;> omega

theorem newSize_eq (id : Nat) : newSize id = id + 100 := by simp only [newSize]; omega

theorem ensureSize_shape {s : FC V} {tl id th : Nat} (h : Shape s tl) :
    Shape (ensureSize s id th) tl ∧ Same s (ensureSize s id th) ∧
    (ensureSize s id th).maxId = fset s.maxId th 0 ∧ id < (ensureSize s id th).sizeOfThreads th ∧
    (ensureSize s id th).synced = s.synced ∧
    s.size ≤ (ensureSize s id th).size := by
  have h0 : Shape { s with maxId := fset s.maxId th 0 } tl :=
    ⟨h.f, h.t, h.m, h.r, h.pf, h.pt, h.plen, h.psz, h.tsz, h.tl⟩
  have e0 : Same s { s with maxId := fset s.maxId th 0 } :=
    ⟨rfl, fun _ _ _ => rfl, fun _ _ _ => rfl, fun _ _ _ => rfl, fun _ _ _ => rfl, fun _ => rfl, fun _ => rfl,
     fun _ => rfl, fun _ => rfl, fun _ => rfl, fun _ => rfl, rfl, rfl, rfl⟩
  simp only [ensureSize]
  split
  · rename_i hc
    have hn : s.sizeOfThreads th ≤ newSize (max id (s.maxId th)) := by rw [newSize_eq]; omega
    obtain ⟨a, b⟩ := resize_shape (n := newSize (max id (s.maxId th))) (th := th) h0 hn
    refine ⟨a, e0.trans b, rfl, ?_, rfl, ?_⟩
    · simp only [resize, fset_same, newSize_eq]; omega
    · simp only [resize]; split <;> omega
  · rename_i hc
    exact ⟨h0, e0, rfl, by show id < s.sizeOfThreads th; omega, rfl, Nat.le_refl _⟩

theorem growThreads_shape {s : FC V} {tl : Nat} (h : Shape s tl) : ∀ k, k ≤ s.nThreads →
    Shape (growThreads s k) tl ∧ Same s (growThreads s k) ∧ (growThreads s k).size = s.size ∧
    (growThreads s k).maxId = s.maxId ∧ (growThreads s k).synced = s.synced ∧
    ∀ th, th < k → (growThreads s k).sizeOfThreads th = s.size
  | 0, _ => ⟨h, Same.refl s, rfl, rfl, rfl, fun _ hth => absurd hth (by omega)⟩
  | k + 1, hk => by
    obtain ⟨a, b, c, d, sy, e⟩ := growThreads_shape h k (by omega)
    simp only [growThreads]
    split
    · rename_i hc
      obtain ⟨a', b'⟩ := resize_shape (n := (growThreads s k).size) (th := k) a (by omega)
      refine ⟨a', b.trans b', ?_, d, sy, ?_⟩
      · simp only [resize]; rw [if_neg (by omega)]; exact c
      · intro th hth
        simp only [resize]
        by_cases he : th = k
        · subst he; rw [fset_same]; exact c
        · rw [fset_other _ _ he]; exact e th (by omega)
    · rename_i hc
      refine ⟨a, b, c, d, sy, ?_⟩
      intro th hth
      by_cases he : th = k
      · subst he
        have := a.tsz th (by rw [b.n]; omega)
        omega
      · exact e th (by omega)

theorem CI.resizeTot {c : Chan V} {n : Nat} {sz : Nat → Nat} {tl m : Nat} (h : CI c n sz tl) :
    CI (c.resizeTot m) n sz m := ⟨h.dlen, h.dwf, Arr.resize_wf _ _, rfl⟩

theorem CI.resizeTot_at {c : Chan V} {n : Nat} {sz : Nat → Nat} {tl m : Nat} (h : CI c n sz tl)
    (hm : tl ≤ m) (id : Nat) : (c.resizeTot m).tot.at' id = c.tot.at' id :=
  Arr.resize_at_grow h.twf (by rw [h.tlen]; exact hm) id

/-- equal lengths are what the flag says -/
def SzOk (s : FC V) (tl : Nat) : Prop := s.syncedSizes = true → Even s tl

theorem syncSizes_shape {s : FC V} {tl : Nat} (h : Shape s tl) (hz : SzOk s tl) :
    Shape (syncSizes s) (syncSizes s).size ∧ Same s (syncSizes s) ∧
    Even (syncSizes s) (syncSizes s).size ∧ (syncSizes s).maxId = s.maxId ∧
    (syncSizes s).synced = s.synced ∧ (syncSizes s).size = s.size ∧ (syncSizes s).syncedSizes = true := by
  unfold syncSizes
  split
  · rename_i hc
    have e := hz hc
    refine ⟨?_, Same.refl s, ⟨rfl, e.2⟩, rfl, rfl, rfl, hc⟩
    rw [← e.1]; exact h
  · obtain ⟨a, b, c, d, sy, e⟩ := growThreads_shape h s.nThreads (Nat.le_refl _)
    have hn : (growThreads s s.nThreads).nThreads = s.nThreads := b.n
    refine ⟨⟨a.f.resizeTot, a.t.resizeTot, a.m.resizeTot, a.r.resizeTot, Arr.resize_wf _ _, Arr.resize_wf _ _,
        rfl, Nat.le_refl _, a.tsz, Nat.le_refl _⟩, ?_, ⟨rfl, rfl, ?_⟩, d, sy, c, rfl⟩
    · refine b.trans ⟨rfl, fun _ _ _ => rfl, fun _ _ _ => rfl, fun _ _ _ => rfl, fun _ _ _ => rfl,
        fun id => a.f.resizeTot_at a.tl id, fun id => a.t.resizeTot_at a.tl id,
        fun id => a.m.resizeTot_at a.tl id, fun id => a.r.resizeTot_at a.tl id,
        fun id => Arr.resize_at_grow a.pf a.psz id,
        fun id => Arr.resize_at_grow a.pt (by rw [a.plen]; exact a.psz) id, rfl, rfl, rfl⟩
    · intro th hth
      show (growThreads s s.nThreads).sizeOfThreads th = (growThreads s s.nThreads).size
      rw [c]
      exact e th (by rw [← hn]; exact hth)

theorem ensureSize_szok {s : FC V} {tl id th : Nat} (hz : SzOk s tl) : SzOk (ensureSize s id th) tl := by
  intro hc
  simp only [ensureSize] at hc ⊢
  split at hc
  · simp [resize] at hc
  · rename_i hn
    rw [if_neg hn]
    exact hz hc

theorem growMaxIds_shape {s : FC V} {tl : Nat} (h : Shape s tl) (hz : SzOk s tl) : ∀ k,
    Shape (growMaxIds s k) tl ∧ Same s (growMaxIds s k) ∧ SzOk (growMaxIds s k) tl ∧
    (growMaxIds s k).synced = s.synced ∧ (∀ th, th < k → (growMaxIds s k).maxId th = 0)
  | 0 => ⟨h, Same.refl s, hz, rfl, fun _ hth => absurd hth (by omega)⟩
  | k + 1 => by
    obtain ⟨a, b, c, d, e⟩ := growMaxIds_shape h hz k
    simp only [growMaxIds]
    split
    · obtain ⟨a', b', m', _, sy, _⟩ := ensureSize_shape (id := (growMaxIds s k).maxId k) (th := k) a
      refine ⟨a', b.trans b', ensureSize_szok c, sy.trans d, ?_⟩
      intro th hth
      rw [m']
      by_cases he : th = k
      · subst he; simp
      · rw [fset_other _ _ he]; exact e th (by omega)
    · rename_i hc
      refine ⟨a, b, c, d, ?_⟩
      intro th hth
      by_cases he : th = k
      · subst he; omega
      · exact e th (by omega)

theorem allTo_of {p : Nat → Bool} : ∀ n, (∀ i, i < n → p i = true) → allTo p n = true
  | 0, _ => rfl
  | n + 1, h => by simp [allTo, allTo_of n (fun i hi => h i (by omega)), h n (by omega)]

theorem CI.covers {c : Chan V} {n : Nat} {sz : Nat → Nat} {size : Nat} (h : CI c n sz size)
    (hs : ∀ th, th < n → sz th = size) : c.covers n size = true := by
  simp only [Chan.covers, Bool.and_eq_true, decide_eq_true_eq]
  exact ⟨allTo_of n (fun i hi => by simp [h.dlen i hi, hs i hi]), by rw [h.tlen]; exact Nat.le_refl _⟩

theorem sumsInside_of {s : FC V} (h : Shape s s.size) (e : Even s s.size) : sumsInside s = true := by
  have e2 := e.2.1
  have hp := h.plen
  simp only [sumsInside, h.f.covers e.2.2, h.t.covers e.2.2, h.m.covers e.2.2, h.r.covers e.2.2]
  simp [e2, hp]

theorem CI.total {c : Chan V} {n : Nat} {sz : Nat → Nat} {size k : Nat} {p : Option (Arr V)}
    (h : CI c n sz size) : CI (c.total k size p) n sz size where
  dlen := h.dlen
  dwf := h.dwf
  twf := by
    intro i hi
    have hl : size ≤ i := by rw [← h.tlen]; exact hi
    simp only [Chan.total]
    rw [if_neg (by omega)]
    exact h.twf i hi
  tlen := h.tlen

theorem csum_beyond {c : Chan V} {n : Nat} {sz : Nat → Nat} {size tl : Nat} (h : CI c n sz tl)
    (hs : ∀ th, th < n → sz th ≤ size) {id : Nat} (hid : size ≤ id) : csum c n id = 0 := by
  unfold csum
  rw [sumTo_congr n (g := fun _ => 0), sumTo_zero]
  intro th hth
  exact h.dwf th hth id (by rw [h.dlen th hth]; exact Nat.le_trans (hs th hth) hid)

/-- value contributed by an optional permanent array -/
def optAt (p : Option (Arr V)) (id : Nat) : V := match p with | some a => a.at' id | none => 0

theorem CI.total_at {c : Chan V} {n : Nat} {sz : Nat → Nat} {size : Nat} {p : Option (Arr V)}
    (h : CI c n sz size) (hs : ∀ th, th < n → sz th = size) (hp : ∀ a, p = some a → a.WF ∧ a.len = size)
    (id : Nat) : (c.total n size p).tot.at' id =
      csum c n id + optAt p id := by
  simp only [Chan.total]
  split
  · cases p <;> simp [csum, optAt]
  · rename_i hc
    rw [h.twf id (by rw [h.tlen]; omega), csum_beyond h (fun th hth => Nat.le_of_eq (hs th hth)) (by omega)]
    cases p with
    | none => simp [optAt]
    | some a => obtain ⟨w, l⟩ := hp a rfl; simp [optAt, w id (by omega)]

/-- per-body totals that the container should hold -/
structure Sums (V : Type) where
  F : Nat → V
  T : Nat → V
  M : Nat → V
  R : Nat → V

/-- the invariant of the container with respect to the totals `g` of the increments -/
structure Inv (s : FC V) (g : Sums V) : Prop where
  shape : ∃ tl, Shape s tl ∧ SzOk s tl ∧ (s.synced = true → Even s tl)
  f : ∀ id, csum s.f s.nThreads id = g.F id
  t : ∀ id, csum s.t s.nThreads id = g.T id
  m : ∀ id, csum s.m s.nThreads id = g.M id
  r : ∀ id, csum s.r s.nThreads id = g.R id
  unusedM : s.moveRotUsed = false → (∀ th, th < s.nThreads → ∀ id, (s.m.data th).at' id = 0) ∧
    (∀ th, th < s.nThreads → ∀ id, (s.r.data th).at' id = 0) ∧ (∀ id, s.m.tot.at' id = 0) ∧ (∀ id, s.r.tot.at' id = 0)
  unusedP : s.permForceUsed = false → (∀ id, s.permForce.at' id = 0) ∧ (∀ id, s.permTorque.at' id = 0)
  tot : s.synced = true → ∀ id, s.f.tot.at' id = g.F id + s.permForce.at' id ∧
    s.t.tot.at' id = g.T id + s.permTorque.at' id ∧ s.m.tot.at' id = g.M id ∧ s.r.tot.at' id = g.R id

end Verif.Forces
