import Verif.Forces.Ops
/-!
# Concurrent additions, at the granularity of accesses to shared variables

`addForce` (core/ForceContainerParallel.cpp:54–58) calls `ensureSize` (26–35) and `resize` (223–232).  The
per-thread vectors, `sizeOfThreads[t]` and `_maxId[t]` are touched by their own thread only, so accesses to
them are merged; every access to the shared `size`, `syncedSizes`, `synced` is a step of its own.
Sequentially consistent interleaving is assumed (weaker memory only adds behaviours).
-/
namespace Verif.Forces
open Verif

variable {V : Type} [AddCommMonoid V]

/-- where a thread is inside `addForce` -/
inductive PC where
  /-- before `addForce` -/
  | idle
  /-- own vectors resized (ForceContainerParallel.cpp:225–229), before the test of `size` (230) -/
  | resized
  /-- `size` was read, before the comparison and the write (230) -/
  | read (reg : Nat)
  /-- before `syncedSizes=false` (231) -/
  | wrote
  /-- before `synced=false` (56) -/
  | flagged
  /-- before the addition (57) -/
  | cleared
  deriving DecidableEq

/-- shared container, additions still to be made by each thread, and program counters -/
structure RS (V : Type) where
  s : FC V
  jobs : Nat → List (Nat × V)
  pc : Nat → PC

/-- ForceContainerParallel.cpp:225–229: the private part of `resize` -/
def resizeOwn (s : FC V) (n th : Nat) : FC V :=
  { s with
    f := s.f.resizeT n th, t := s.t.resizeT n th, m := s.m.resizeT n th, r := s.r.resizeT n th,
    sizeOfThreads := fset s.sizeOfThreads th n }

/-- ForceContainerParallel.cpp:230 `if (size<newSize) size=newSize`, with the value `reg` read before -/
def writeSize (s : FC V) (reg n : Nat) : FC V := if reg < n then { s with size := n } else s

/-- one step of thread `t`; with `atomic` the read, the comparison and the write of `size` are one step.
A finished thread does nothing. -/
def rstep (atomic : Bool) (R : RS V) (t : Nat) : Res (RS V) :=
  match R.pc t, R.jobs t with
  | .idle, [] => .ok R
  | .idle, (id, _) :: _ =>
    let idMax := max id (R.s.maxId t)
    let s := { R.s with maxId := fset R.s.maxId t 0 }
    if s.sizeOfThreads t ≤ idMax then .ok { R with s := resizeOwn s (newSize idMax) t, pc := fset R.pc t .resized }
    else .ok { R with s := s, pc := fset R.pc t .flagged }
  | .resized, _ =>
    if atomic then .ok { R with s := writeSize R.s R.s.size (R.s.sizeOfThreads t), pc := fset R.pc t .wrote }
    else .ok { R with pc := fset R.pc t (.read R.s.size) }
  | .read reg, _ => .ok { R with s := writeSize R.s reg (R.s.sizeOfThreads t), pc := fset R.pc t .wrote }
  | .wrote, _ => .ok { R with s := { R.s with syncedSizes := false }, pc := fset R.pc t .flagged }
  | .flagged, _ => .ok { R with s := { R.s with synced := false }, pc := fset R.pc t .cleared }
  | .cleared, [] => .ok { R with pc := fset R.pc t .idle }
  | .cleared, (id, v) :: rest =>
    match R.s.f.addAt t id v with
    | .ok c => .ok { s := { R.s with f := c }, jobs := fset R.jobs t rest, pc := fset R.pc t .idle }
    | .throws => .throws
    | .ub => .ub

/-- a schedule: which thread makes the next step -/
def rrun (atomic : Bool) (R : RS V) : List Nat → Res (RS V)
  | [] => .ok R
  | t :: ts => match rstep atomic R t with
    | .ok R' => rrun atomic R' ts
    | .throws => .throws
    | .ub => .ub

/-- what the remaining additions of one thread contribute to a body -/
def jobSum : List (Nat × V) → Nat → V
  | [], _ => 0
  | (i, v) :: js, id => if i = id then v + jobSum js id else jobSum js id

/-- invariant of the atomic interleavings -/
structure RInv (R : RS V) (n : Nat) (C : Nat → V) (g : Sums V) : Prop where
  hn : R.s.nThreads = n
  shape : ∃ tl, CI R.s.f n R.s.sizeOfThreads tl ∧ CI R.s.t n R.s.sizeOfThreads tl ∧
    CI R.s.m n R.s.sizeOfThreads tl ∧ CI R.s.r n R.s.sizeOfThreads tl ∧
    R.s.permForce.WF ∧ R.s.permTorque.WF ∧ R.s.permTorque.len = R.s.permForce.len ∧
    R.s.permForce.len ≤ R.s.size ∧ tl ≤ R.s.size ∧
    (∀ th, th < n → R.pc th ≠ .resized → R.s.sizeOfThreads th ≤ R.s.size) ∧
    (R.s.syncedSizes = true → (∃ th, th < n ∧ (R.pc th = .resized ∨ R.pc th = .wrote)) ∨ Even R.s tl) ∧
    (R.s.synced = true → (∃ th, th < n ∧ (R.pc th = .resized ∨ R.pc th = .wrote ∨ R.pc th = .flagged)) ∨ Even R.s tl)
  job : ∀ th, th < n → R.pc th ≠ .idle → ∃ id v rest, R.jobs th = (id, v) :: rest ∧ id < R.s.sizeOfThreads th
  noread : ∀ th, th < n → ∀ x, R.pc th ≠ .read x
  cl : ∀ th, th < n → R.pc th = .cleared → R.s.synced = false
  sum : ∀ id, csum R.s.f n id + sumTo (fun th => jobSum (R.jobs th) id) n = C id
  t : ∀ id, csum R.s.t n id = g.T id
  m : ∀ id, csum R.s.m n id = g.M id
  r : ∀ id, csum R.s.r n id = g.R id
  unusedM : R.s.moveRotUsed = false → (∀ th, th < n → ∀ id, (R.s.m.data th).at' id = 0) ∧
    (∀ th, th < n → ∀ id, (R.s.r.data th).at' id = 0) ∧ (∀ id, R.s.m.tot.at' id = 0) ∧ (∀ id, R.s.r.tot.at' id = 0)
  unusedP : R.s.permForceUsed = false → (∀ id, R.s.permForce.at' id = 0) ∧ (∀ id, R.s.permTorque.at' id = 0)
  tot : R.s.synced = true → ∀ id, R.s.f.tot.at' id = csum R.s.f n id + R.s.permForce.at' id ∧
    R.s.t.tot.at' id = g.T id + R.s.permTorque.at' id ∧ R.s.m.tot.at' id = g.M id ∧ R.s.r.tot.at' id = g.R id

theorem rinv_init {s : FC V} {g : Sums V} (h : Inv s g) (jobs : Nat → List (Nat × V)) :
    RInv ⟨s, jobs, fun _ => .idle⟩ s.nThreads (fun id => g.F id + sumTo (fun th => jobSum (jobs th) id) s.nThreads) g := by
  obtain ⟨tl, sh, sz, ev⟩ := h.shape
  refine ⟨rfl, ⟨tl, sh.f, sh.t, sh.m, sh.r, sh.pf, sh.pt, sh.plen, sh.psz, sh.tl, fun th hth _ => sh.tsz th hth,
    fun hs => Or.inr (sz hs), fun hs => Or.inr (ev hs)⟩, by simp, by simp, by simp, ?_, h.t, h.m, h.r, h.unusedM, h.unusedP, ?_⟩
  · intro id; show csum s.f s.nThreads id + _ = _; rw [h.f]
  · intro hs id
    show s.f.tot.at' id = csum s.f s.nThreads id + _ ∧ _
    rw [h.f]
    exact h.tot hs id

/-- the invariant when every thread has finished is the invariant of the container -/
theorem rinv_final {R : RS V} {n : Nat} {C : Nat → V} {g : Sums V} (h : RInv R n C g)
    (hi : ∀ th, th < n → R.pc th = .idle) (hj : ∀ th, th < n → R.jobs th = []) :
    Inv R.s { g with F := C } := by
  have hC : ∀ id, csum R.s.f n id = C id := by
    intro id
    have := h.sum id
    rwa [sumTo_congr n (g := fun _ => 0) (fun th hth => by rw [hj th hth]; rfl), sumTo_zero, add_zero] at this
  obtain ⟨tl, a1, a2, a3, a4, p1, p2, p3, p4, l, ts, e1, e2⟩ := h.shape
  have hn := h.hn
  subst hn
  refine ⟨⟨tl, ⟨a1, a2, a3, a4, p1, p2, p3, p4, fun th hth => ts th hth (by rw [hi th hth]; simp), l⟩, ?_, ?_⟩,
    hC, h.t, h.m, h.r, h.unusedM, h.unusedP, ?_⟩
  · intro hs
    rcases e1 hs with ⟨th, hth, hp⟩ | e
    · rw [hi th hth] at hp; simp at hp
    · exact e
  · intro hs
    rcases e2 hs with ⟨th, hth, hp⟩ | e
    · rw [hi th hth] at hp; simp at hp
    · exact e
  · intro hs id
    have := h.tot hs id
    rw [hC id] at this
    exact this

theorem jobSum_split {jobs : Nat → List (Nat × V)} {t n : Nat} (ht : t < n) {id : Nat} {v : V}
    {rest : List (Nat × V)} (hj : jobs t = (id, v) :: rest) (j : Nat) :
    sumTo (fun th => jobSum (jobs th) j) n =
      sumTo (fun th => jobSum (fset jobs t rest th) j) n + (if j = id then v else 0) := by
  by_cases e : j = id
  · subst e
    rw [if_pos rfl, ← sumTo_add_one _ t v n ht]
    apply sumTo_congr
    intro th _
    by_cases he : th = t
    · subst he; simp [hj, jobSum, add_comm]
    · simp [he, fset_other _ _ he]
  · rw [if_neg e, add_zero]
    apply sumTo_congr
    intro th _
    by_cases he : th = t
    · subst he
      have e' : ¬ id = j := fun h => e h.symm
      simp [hj, jobSum, e']
    · simp [fset_other _ _ he]

theorem pc_other {pc : Nat → PC} {t th : Nat} {p q : PC} (hn : fset pc t p th = q) (hp : p ≠ q) : th ≠ t ∧ pc th = q := by
  by_cases he : th = t
  · subst he; rw [fset_same] at hn; exact absurd hn hp
  · rw [fset_other _ _ he] at hn; exact ⟨he, hn⟩

theorem rstep_inv {R : RS V} {n : Nat} {C : Nat → V} {g : Sums V} (h : RInv R n C g) {t : Nat} (ht : t < n) :
    ∃ R', rstep true R t = .ok R' ∧ RInv R' n C g := by
  obtain ⟨tl, a1, a2, a3, a4, p1, p2, p3, p4, l, ts, e1, e2⟩ := h.shape
  have hn := h.hn
  unfold rstep
  split
  · exact ⟨R, rfl, h⟩
  · -- start of an addition
    rename_i id v rest hpc hjob
    simp only
    split
    · rename_i hc
      have hm : R.s.sizeOfThreads t ≤ newSize (max id (R.s.maxId t)) := by rw [newSize_eq]; omega
      have hid : id < newSize (max id (R.s.maxId t)) := by rw [newSize_eq]; omega
      refine ⟨_, rfl, ⟨hn, ⟨tl, a1.resizeT, a2.resizeT, a3.resizeT, a4.resizeT, p1, p2, p3, p4, l, ?_, ?_, ?_⟩,
        ?_, ?_, ?_, ?_, ?_, ?_, ?_, ?_, h.unusedP, ?_⟩⟩
      · intro th hth hp
        by_cases he : th = t
        · subst he; simp at hp
        · simp only [fset_other _ _ he] at hp
          show fset R.s.sizeOfThreads t _ th ≤ R.s.size
          rw [fset_other _ _ he]; exact ts th hth hp
      · intro _; exact Or.inl ⟨t, ht, Or.inl (by simp)⟩
      · intro _; exact Or.inl ⟨t, ht, Or.inl (by simp)⟩
      · intro th hth hp
        by_cases he : th = t
        · subst he
          exact ⟨id, v, rest, hjob, by simpa [resizeOwn] using hid⟩
        · simp only [fset_other _ _ he] at hp
          obtain ⟨i, w, rs, hj, hs⟩ := h.job th hth hp
          exact ⟨i, w, rs, hj, by simpa [resizeOwn, fset_other _ _ he] using hs⟩
      · intro th hth x hp
        obtain ⟨_, hp⟩ := pc_other hp (by simp)
        exact h.noread th hth x hp
      · intro th hth hp
        obtain ⟨_, hp⟩ := pc_other hp (by simp)
        exact h.cl th hth hp
      · intro j
        show csum (R.s.f.resizeT _ t) n j + _ = _
        rw [csum_congr (fun th hth i => a1.resizeT_at hm th hth i)]
        exact h.sum j
      · intro j
        show csum (R.s.t.resizeT _ t) n j = _
        rw [csum_congr (fun th hth i => a2.resizeT_at hm th hth i)]; exact h.t j
      · intro j
        show csum (R.s.m.resizeT _ t) n j = _
        rw [csum_congr (fun th hth i => a3.resizeT_at hm th hth i)]; exact h.m j
      · intro j
        show csum (R.s.r.resizeT _ t) n j = _
        rw [csum_congr (fun th hth i => a4.resizeT_at hm th hth i)]; exact h.r j
      · intro hu
        obtain ⟨x, y, z, w⟩ := h.unusedM hu
        exact ⟨fun th hth i => (a3.resizeT_at hm th hth i).trans (x th hth i),
          fun th hth i => (a4.resizeT_at hm th hth i).trans (y th hth i), z, w⟩
      · intro hs j
        show _ = csum (R.s.f.resizeT _ t) n j + _ ∧ _
        rw [csum_congr (fun th hth i => a1.resizeT_at hm th hth i)]
        exact h.tot hs j
    · rename_i hc
      refine ⟨_, rfl, ⟨hn, ⟨tl, a1, a2, a3, a4, p1, p2, p3, p4, l, ?_, ?_, ?_⟩,
        ?_, ?_, ?_, h.sum, h.t, h.m, h.r, h.unusedM, h.unusedP, h.tot⟩⟩
      · intro th hth hp
        by_cases he : th = t
        · subst he; exact ts th hth (by rw [hpc]; simp)
        · simp only [fset_other _ _ he] at hp; exact ts th hth hp
      · intro hs
        rcases e1 hs with ⟨th, hth, hp⟩ | e
        · have he : th ≠ t := by intro he; subst he; rw [hpc] at hp; simp at hp
          exact Or.inl ⟨th, hth, by simp only [fset_other _ _ he]; exact hp⟩
        · exact Or.inr e
      · intro _; exact Or.inl ⟨t, ht, Or.inr (Or.inr (by simp))⟩
      · intro th hth hp
        by_cases he : th = t
        · subst he
          refine ⟨id, v, rest, hjob, ?_⟩
          show id < R.s.sizeOfThreads th
          have hc' : ¬ R.s.sizeOfThreads th ≤ max id (R.s.maxId th) := hc
          omega
        · simp only [fset_other _ _ he] at hp; exact h.job th hth hp
      · intro th hth x hp
        obtain ⟨_, hp⟩ := pc_other hp (by simp)
        exact h.noread th hth x hp
      · intro th hth hp
        obtain ⟨_, hp⟩ := pc_other hp (by simp)
        exact h.cl th hth hp
  · -- the test and write of `size`
    rename_i hpc
    have hw : ∀ {α : Type} (f : FC V → α), (∀ s : FC V, ∀ k, f { s with size := k } = f s) →
        f (writeSize R.s R.s.size (R.s.sizeOfThreads t)) = f R.s := by
      intro α f hf
      unfold writeSize
      split
      · exact hf _ _
      · rfl
    have hsz : (writeSize R.s R.s.size (R.s.sizeOfThreads t)).size = max R.s.size (R.s.sizeOfThreads t) := by
      unfold writeSize
      split
      · show R.s.sizeOfThreads t = _; omega
      · omega
    have w1 := hw FC.f (fun _ _ => rfl)
    have w2 := hw FC.t (fun _ _ => rfl)
    have w3 := hw FC.m (fun _ _ => rfl)
    have w4 := hw FC.r (fun _ _ => rfl)
    have w5 := hw FC.sizeOfThreads (fun _ _ => rfl)
    have w6 := hw FC.permForce (fun _ _ => rfl)
    have w7 := hw FC.permTorque (fun _ _ => rfl)
    have w8 := hw FC.nThreads (fun _ _ => rfl)
    have w9 := hw FC.synced (fun _ _ => rfl)
    have w10 := hw FC.moveRotUsed (fun _ _ => rfl)
    have w11 := hw FC.permForceUsed (fun _ _ => rfl)
    refine ⟨_, rfl, ⟨?_, ⟨tl, ?_⟩, ?_, ?_, ?_, ?_, ?_, ?_, ?_, ?_, ?_, ?_⟩⟩ <;>
      simp only [w1, w2, w3, w4, w5, w6, w7, w8, w9, w10, w11, hsz]
    · exact hn
    · refine ⟨a1, a2, a3, a4, p1, p2, p3, by omega, by omega, ?_, ?_, ?_⟩
      · intro th hth hp
        by_cases he : th = t
        · subst he; omega
        · rw [fset_other _ _ he] at hp; have := ts th hth hp; omega
      · intro _; exact Or.inl ⟨t, ht, Or.inr (by simp)⟩
      · intro _; exact Or.inl ⟨t, ht, Or.inr (Or.inl (by simp))⟩
    · intro th hth hp
      by_cases he : th = t
      · subst he; exact h.job th hth (by rw [hpc]; simp)
      · rw [fset_other _ _ he] at hp; exact h.job th hth hp
    · intro th hth x hp
      obtain ⟨_, hp⟩ := pc_other hp (by simp)
      exact h.noread th hth x hp
    · intro th hth hp
      obtain ⟨_, hp⟩ := pc_other hp (by simp)
      exact h.cl th hth hp
    · exact h.sum
    · exact h.t
    · exact h.m
    · exact h.r
    · exact h.unusedM
    · exact h.unusedP
    · exact h.tot
  · rename_i reg hpc
    exact absurd hpc (h.noread t ht reg)
  · rename_i hpc
    refine ⟨_, rfl, ⟨hn, ⟨tl, a1, a2, a3, a4, p1, p2, p3, p4, l, ?_, by simp, ?_⟩, ?_, ?_, ?_, h.sum, h.t, h.m, h.r,
      h.unusedM, h.unusedP, h.tot⟩⟩
    · intro th hth hp
      by_cases he : th = t
      · subst he; exact ts th hth (by rw [hpc]; simp)
      · simp only [fset_other _ _ he] at hp; exact ts th hth hp
    · intro _; exact Or.inl ⟨t, ht, Or.inr (Or.inr (by simp))⟩
    · intro th hth hp
      by_cases he : th = t
      · subst he; exact h.job th hth (by rw [hpc]; simp)
      · simp only [fset_other _ _ he] at hp; exact h.job th hth hp
    · intro th hth x hp
      obtain ⟨_, hp⟩ := pc_other hp (by simp)
      exact h.noread th hth x hp
    · intro th hth hp
      obtain ⟨_, hp⟩ := pc_other hp (by simp)
      exact h.cl th hth hp
  · rename_i hpc
    refine ⟨_, rfl, ⟨hn, ⟨tl, a1, a2, a3, a4, p1, p2, p3, p4, l, ?_, ?_, by simp⟩, ?_, ?_, by simp, h.sum, h.t, h.m, h.r,
      h.unusedM, h.unusedP, by simp⟩⟩
    · intro th hth hp
      by_cases he : th = t
      · subst he; exact ts th hth (by rw [hpc]; simp)
      · simp only [fset_other _ _ he] at hp; exact ts th hth hp
    · intro hs
      rcases e1 hs with ⟨th, hth, hp⟩ | e
      · have he : th ≠ t := by intro he; subst he; rw [hpc] at hp; simp at hp
        exact Or.inl ⟨th, hth, by simp only [fset_other _ _ he]; exact hp⟩
      · exact Or.inr e
    · intro th hth hp
      by_cases he : th = t
      · subst he; exact h.job th hth (by rw [hpc]; simp)
      · simp only [fset_other _ _ he] at hp; exact h.job th hth hp
    · intro th hth x hp
      obtain ⟨_, hp⟩ := pc_other hp (by simp)
      exact h.noread th hth x hp
  · rename_i hpc hjob
    obtain ⟨i, w, rs, hj, _⟩ := h.job t ht (by rw [hpc]; simp)
    rw [hj] at hjob; cases hjob
  · -- the addition
    rename_i id v rest hpc hjob
    obtain ⟨i, w, rs, hj, hs⟩ := h.job t ht (by rw [hpc]; simp)
    rw [hj] at hjob
    cases hjob
    obtain ⟨c, hc, ci, ct, hsum⟩ := a1.addAt ht hs v
    have hsy := h.cl t ht hpc
    simp only [hc]
    refine ⟨_, rfl, ⟨hn, ⟨tl, ci, a2, a3, a4, p1, p2, p3, p4, l, ?_, ?_, ?_⟩, ?_, ?_, ?_, ?_, h.t, h.m, h.r,
      h.unusedM, h.unusedP, ?_⟩⟩
    · intro th hth hp
      by_cases he : th = t
      · subst he; exact ts th hth (by rw [hpc]; simp)
      · simp only [fset_other _ _ he] at hp; exact ts th hth hp
    · intro hs
      rcases e1 hs with ⟨th, hth, hp⟩ | e
      · have he : th ≠ t := by intro he; subst he; rw [hpc] at hp; simp at hp
        exact Or.inl ⟨th, hth, by simp only [fset_other _ _ he]; exact hp⟩
      · exact Or.inr e
    · intro hs'
      have hs' : R.s.synced = true := hs'
      rw [hsy] at hs'; cases hs'
    · intro th hth hp
      by_cases he : th = t
      · subst he; simp at hp
      · simp only [fset_other _ _ he] at hp ⊢; exact h.job th hth hp
    · intro th hth x hp
      obtain ⟨_, hp⟩ := pc_other hp (by simp)
      exact h.noread th hth x hp
    · intro th hth hp
      obtain ⟨_, hp⟩ := pc_other hp (by simp)
      exact h.cl th hth hp
    · intro j
      show csum c n j + _ = _
      rw [hsum j, ← h.sum j, jobSum_split ht hj j]
      by_cases e : j = id
      · simp only [e, if_true]
        rw [add_assoc, add_comm v]
      · simp only [e, if_false, add_zero]
    · intro hs'
      have hs' : R.s.synced = true := hs'
      rw [hsy] at hs'; cases hs'

theorem rrun_inv {n : Nat} {C : Nat → V} {g : Sums V} : ∀ (sched : List Nat) (R : RS V), RInv R n C g →
    (∀ t ∈ sched, t < n) → ∃ R', rrun true R sched = .ok R' ∧ RInv R' n C g
  | [], R, h, _ => ⟨R, rfl, h⟩
  | t :: ts, R, h, hs => by
    obtain ⟨R1, e1, h1⟩ := rstep_inv h (hs t (by simp))
    obtain ⟨R2, e2, h2⟩ := rrun_inv ts R1 h1 (fun x hx => hs x (by simp [hx]))
    exact ⟨R2, by simp only [rrun, e1, e2], h2⟩

end Verif.Forces
