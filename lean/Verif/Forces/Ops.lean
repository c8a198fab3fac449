import Verif.Forces.Lemmas
/-! Helper lemmas: every operation keeps the invariant and has its effect on the totals. -/
namespace Verif.Forces
open Verif

variable {V : Type} [AddCommMonoid V]

/-- no increments -/
def Sums.zero : Sums V := ⟨fun _ => 0, fun _ => 0, fun _ => 0, fun _ => 0⟩
/-- one value added at one id -/
def bump (h : Nat → V) (id : Nat) (v : V) : Nat → V := fun j => if j = id then h j + v else h j

theorem inv_init (n : Nat) : Inv (FC.init n : FC V) Sums.zero := by
  have ci : CI (⟨fun _ => .empty, .empty⟩ : Chan V) n (fun _ => 0) 0 :=
    ⟨fun _ _ => rfl, fun _ _ => Arr.empty_wf, Arr.empty_wf, rfl⟩
  have ev : Even (FC.init n : FC V) 0 := ⟨rfl, rfl, fun _ _ => rfl⟩
  refine ⟨⟨0, ⟨ci, ci, ci, ci, Arr.empty_wf, Arr.empty_wf, rfl, Nat.le_refl _, fun _ _ => Nat.le_refl _,
    Nat.le_refl _⟩, fun _ => ev, fun _ => ev⟩, ?_, ?_, ?_, ?_, ?_, ?_, ?_⟩
  · intro id; exact sumTo_zero n
  · intro id; exact sumTo_zero n
  · intro id; exact sumTo_zero n
  · intro id; exact sumTo_zero n
  · intro _; exact ⟨fun _ _ _ => rfl, fun _ _ _ => rfl, fun _ => rfl, fun _ => rfl⟩
  · intro _; exact ⟨fun _ => rfl, fun _ => rfl⟩
  · intro _ id
    refine ⟨?_, ?_, rfl, rfl⟩ <;> simp [FC.init, Arr.empty, Sums.zero]

/-- the invariant without the statement on synchronised totals, after `ensureSize` -/
theorem inv_ensure {s : FC V} {g : Sums V} (h : Inv s g) (id th : Nat) :
    ∃ tl, Shape (ensureSize s id th) tl ∧ SzOk (ensureSize s id th) tl ∧ Same s (ensureSize s id th) ∧
      id < (ensureSize s id th).sizeOfThreads th := by
  obtain ⟨tl, sh, sz, _⟩ := h.shape
  obtain ⟨a, b, _, d, _, _⟩ := ensureSize_shape (id := id) (th := th) sh
  exact ⟨tl, a, ensureSize_szok sz, b, d⟩

theorem addForce_inv {s : FC V} {g : Sums V} (h : Inv s g) {th : Nat} (ht : th < s.nThreads) (id : Nat) (v : V) :
    ∃ s', addForce s th id v = .ok s' ∧ Inv s' { g with F := bump g.F id v } ∧ s'.nThreads = s.nThreads ∧
      s'.synced = false ∧ (∀ j, s'.permForce.at' j = s.permForce.at' j) ∧
      (∀ j, s'.permTorque.at' j = s.permTorque.at' j) := by
  obtain ⟨tl, sh, sz, sm, hid⟩ := inv_ensure h id th
  have ht' : th < (ensureSize s id th).nThreads := by rw [sm.n]; exact ht
  obtain ⟨c, hc, ci, ctot, hs⟩ := sh.f.addAt ht' hid v
  have hn := sm.n
  refine ⟨{ ensureSize s id th with f := c, synced := false }, ?_, ?_, sm.n, rfl, sm.pf, sm.pt⟩
  · simp only [addForce, hc]
  · refine ⟨⟨tl, ⟨ci, sh.t, sh.m, sh.r, sh.pf, sh.pt, sh.plen, sh.psz, sh.tsz, sh.tl⟩, sz, by simp⟩,
      ?_, ?_, ?_, ?_, ?_, ?_, by simp⟩
    · intro j
      show csum c (ensureSize s id th).nThreads j = _
      rw [hs j, hn, csum_congr sm.f, h.f]; rfl
    · intro j
      show csum (ensureSize s id th).t (ensureSize s id th).nThreads j = _
      rw [hn, csum_congr sm.t, h.t]
    · intro j
      show csum (ensureSize s id th).m (ensureSize s id th).nThreads j = _
      rw [hn, csum_congr sm.m, h.m]
    · intro j
      show csum (ensureSize s id th).r (ensureSize s id th).nThreads j = _
      rw [hn, csum_congr sm.r, h.r]
    · intro hu
      obtain ⟨a, b, c', d⟩ := h.unusedM (by rw [← sm.mru]; exact hu)
      exact ⟨fun t' h' i => (sm.m t' (hn ▸ h') i).trans (a t' (hn ▸ h') i),
        fun t' h' i => (sm.r t' (hn ▸ h') i).trans (b t' (hn ▸ h') i),
        fun i => (sm.tm i).trans (c' i), fun i => (sm.tr i).trans (d i)⟩
    · intro hu
      obtain ⟨a, b⟩ := h.unusedP (by rw [← sm.pfu]; exact hu)
      exact ⟨fun i => (sm.pf i).trans (a i), fun i => (sm.pt i).trans (b i)⟩

theorem addTorque_inv {s : FC V} {g : Sums V} (h : Inv s g) {th : Nat} (ht : th < s.nThreads) (id : Nat) (v : V) :
    ∃ s', addTorque s th id v = .ok s' ∧ Inv s' { g with T := bump g.T id v } ∧ s'.nThreads = s.nThreads ∧
      s'.synced = false ∧ (∀ j, s'.permForce.at' j = s.permForce.at' j) ∧
      (∀ j, s'.permTorque.at' j = s.permTorque.at' j) := by
  obtain ⟨tl, sh, sz, sm, hid⟩ := inv_ensure h id th
  have ht' : th < (ensureSize s id th).nThreads := by rw [sm.n]; exact ht
  obtain ⟨c, hc, ci, ctot, hs⟩ := sh.t.addAt ht' hid v
  have hn := sm.n
  refine ⟨{ ensureSize s id th with t := c, synced := false }, ?_, ?_, sm.n, rfl, sm.pf, sm.pt⟩
  · simp only [addTorque, hc]
  · refine ⟨⟨tl, ⟨sh.f, ci, sh.m, sh.r, sh.pf, sh.pt, sh.plen, sh.psz, sh.tsz, sh.tl⟩, sz, by simp⟩,
      ?_, ?_, ?_, ?_, ?_, ?_, by simp⟩
    · intro j
      show csum (ensureSize s id th).f (ensureSize s id th).nThreads j = _
      rw [hn, csum_congr sm.f, h.f]
    · intro j
      show csum c (ensureSize s id th).nThreads j = _
      rw [hs j, hn, csum_congr sm.t, h.t]; rfl
    · intro j
      show csum (ensureSize s id th).m (ensureSize s id th).nThreads j = _
      rw [hn, csum_congr sm.m, h.m]
    · intro j
      show csum (ensureSize s id th).r (ensureSize s id th).nThreads j = _
      rw [hn, csum_congr sm.r, h.r]
    · intro hu
      obtain ⟨a, b, c', d⟩ := h.unusedM (by rw [← sm.mru]; exact hu)
      exact ⟨fun t' h' i => (sm.m t' (hn ▸ h') i).trans (a t' (hn ▸ h') i),
        fun t' h' i => (sm.r t' (hn ▸ h') i).trans (b t' (hn ▸ h') i),
        fun i => (sm.tm i).trans (c' i), fun i => (sm.tr i).trans (d i)⟩
    · intro hu
      obtain ⟨a, b⟩ := h.unusedP (by rw [← sm.pfu]; exact hu)
      exact ⟨fun i => (sm.pf i).trans (a i), fun i => (sm.pt i).trans (b i)⟩

theorem addMove_inv {s : FC V} {g : Sums V} (h : Inv s g) {th : Nat} (ht : th < s.nThreads) (id : Nat) (v : V) :
    ∃ s', addMove s th id v = .ok s' ∧ Inv s' { g with M := bump g.M id v } ∧ s'.nThreads = s.nThreads ∧
      s'.synced = false ∧ (∀ j, s'.permForce.at' j = s.permForce.at' j) ∧
      (∀ j, s'.permTorque.at' j = s.permTorque.at' j) := by
  obtain ⟨tl, sh, sz, sm, hid⟩ := inv_ensure h id th
  have ht' : th < (ensureSize s id th).nThreads := by rw [sm.n]; exact ht
  obtain ⟨c, hc, ci, ctot, hs⟩ := sh.m.addAt ht' hid v
  have hn := sm.n
  refine ⟨{ ensureSize s id th with m := c, synced := false, moveRotUsed := true }, ?_, ?_, sm.n, rfl, sm.pf, sm.pt⟩
  · simp only [addMove, hc]
  · refine ⟨⟨tl, ⟨sh.f, sh.t, ci, sh.r, sh.pf, sh.pt, sh.plen, sh.psz, sh.tsz, sh.tl⟩, sz, by simp⟩,
      ?_, ?_, ?_, ?_, by simp, ?_, by simp⟩
    · intro j
      show csum (ensureSize s id th).f (ensureSize s id th).nThreads j = _
      rw [hn, csum_congr sm.f, h.f]
    · intro j
      show csum (ensureSize s id th).t (ensureSize s id th).nThreads j = _
      rw [hn, csum_congr sm.t, h.t]
    · intro j
      show csum c (ensureSize s id th).nThreads j = _
      rw [hs j, hn, csum_congr sm.m, h.m]; rfl
    · intro j
      show csum (ensureSize s id th).r (ensureSize s id th).nThreads j = _
      rw [hn, csum_congr sm.r, h.r]
    · intro hu
      obtain ⟨a, b⟩ := h.unusedP (by rw [← sm.pfu]; exact hu)
      exact ⟨fun i => (sm.pf i).trans (a i), fun i => (sm.pt i).trans (b i)⟩

theorem addRot_inv {s : FC V} {g : Sums V} (h : Inv s g) {th : Nat} (ht : th < s.nThreads) (id : Nat) (v : V) :
    ∃ s', addRot s th id v = .ok s' ∧ Inv s' { g with R := bump g.R id v } ∧ s'.nThreads = s.nThreads ∧
      s'.synced = false ∧ (∀ j, s'.permForce.at' j = s.permForce.at' j) ∧
      (∀ j, s'.permTorque.at' j = s.permTorque.at' j) := by
  obtain ⟨tl, sh, sz, sm, hid⟩ := inv_ensure h id th
  have ht' : th < (ensureSize s id th).nThreads := by rw [sm.n]; exact ht
  obtain ⟨c, hc, ci, ctot, hs⟩ := sh.r.addAt ht' hid v
  have hn := sm.n
  refine ⟨{ ensureSize s id th with r := c, synced := false, moveRotUsed := true }, ?_, ?_, sm.n, rfl, sm.pf, sm.pt⟩
  · simp only [addRot, hc]
  · refine ⟨⟨tl, ⟨sh.f, sh.t, sh.m, ci, sh.pf, sh.pt, sh.plen, sh.psz, sh.tsz, sh.tl⟩, sz, by simp⟩,
      ?_, ?_, ?_, ?_, by simp, ?_, by simp⟩
    · intro j
      show csum (ensureSize s id th).f (ensureSize s id th).nThreads j = _
      rw [hn, csum_congr sm.f, h.f]
    · intro j
      show csum (ensureSize s id th).t (ensureSize s id th).nThreads j = _
      rw [hn, csum_congr sm.t, h.t]
    · intro j
      show csum (ensureSize s id th).m (ensureSize s id th).nThreads j = _
      rw [hn, csum_congr sm.m, h.m]
    · intro j
      show csum c (ensureSize s id th).nThreads j = _
      rw [hs j, hn, csum_congr sm.r, h.r]; rfl
    · intro hu
      obtain ⟨a, b⟩ := h.unusedP (by rw [← sm.pfu]; exact hu)
      exact ⟨fun i => (sm.pf i).trans (a i), fun i => (sm.pt i).trans (b i)⟩

theorem addMaxId_inv {s : FC V} {g : Sums V} (h : Inv s g) (th id : Nat) : Inv (addMaxId s th id) g := by
  obtain ⟨tl, sh, sz, ev⟩ := h.shape
  exact ⟨⟨tl, ⟨sh.f, sh.t, sh.m, sh.r, sh.pf, sh.pt, sh.plen, sh.psz, sh.tsz, sh.tl⟩, sz, ev⟩,
    h.f, h.t, h.m, h.r, h.unusedM, h.unusedP, h.tot⟩

/-- where the permanent arrays are cut by `ensureSizePerm` -/
theorem resizePerm_shape {s : FC V} {tl n : Nat} (h : Shape s tl) : Shape (resizePerm s n) tl := by
  refine ⟨h.f, h.t, h.m, h.r, Arr.resize_wf _ _, Arr.resize_wf _ _, rfl, ?_, ?_, ?_⟩
  · simp only [resizePerm, Arr.resize_len]; split <;> omega
  · intro th hth; have := h.tsz th hth; simp only [resizePerm]; split <;> omega
  · have := h.tl; simp only [resizePerm]; split <;> omega

theorem resize_at (a : Arr V) (h : a.WF) (n i : Nat) : (a.resize n).at' i = if i < n then a.at' i else 0 := by
  simp only [Arr.resize]
  by_cases h1 : i < n
  · by_cases h2 : i < a.len
    · simp [h1, h2]
    · simp [h1, h2, h i (by omega)]
  · simp [h1]

theorem setPermForce_inv {s : FC V} {g : Sums V} (h : Inv s g) (id : Nat) (v : V) (gb : Nat) :
    ∃ s', setPermForce s id v (some gb) = .ok s' ∧ Inv s' g ∧ s'.nThreads = s.nThreads ∧ s'.synced = false ∧
      s'.permForceUsed = true ∧
      (∀ j, s'.permForce.at' j = if j = id then v else if j < max id gb + 100 then s.permForce.at' j else 0) ∧
      (∀ j, s'.permTorque.at' j = if j < max id gb + 100 then s.permTorque.at' j else 0) := by
  obtain ⟨tl, sh, sz, ev⟩ := h.shape
  have sh' := resizePerm_shape (n := newSize (max id gb)) sh
  have hl : id < (resizePerm s (newSize (max id gb))).permForce.len := by
    simp only [resizePerm, Arr.resize_len, newSize_eq]; omega
  refine ⟨{ resizePerm s (newSize (max id gb)) with
      permForce := ⟨(resizePerm s (newSize (max id gb))).permForce.len, fun j => if j = id then v else
        (resizePerm s (newSize (max id gb))).permForce.at' j⟩, synced := false, permForceUsed := true },
    ?_, ?_, rfl, rfl, rfl, ?_, ?_⟩
  · simp only [setPermForce, ensureSizePerm, Arr.set, if_pos hl]
  · refine ⟨⟨tl, ⟨sh'.f, sh'.t, sh'.m, sh'.r, ?_, sh'.pt, sh'.plen, sh'.psz, sh'.tsz, sh'.tl⟩, ?_, by simp⟩,
      h.f, h.t, h.m, h.r, h.unusedM, by simp, by simp⟩
    · intro i hi
      have hi' : (resizePerm s (newSize (max id gb))).permForce.len ≤ i := hi
      show (if i = id then v else _) = 0
      rw [if_neg (by omega)]
      exact sh'.pf i hi'
    · intro hc; simp [resizePerm] at hc
  · intro j
    show (if j = id then v else (s.permForce.resize (newSize (max id gb))).at' j) = _
    rw [resize_at _ sh.pf, newSize_eq]
  · intro j
    show (s.permTorque.resize (newSize (max id gb))).at' j = _
    rw [resize_at _ sh.pt, newSize_eq]

theorem setPermTorque_inv {s : FC V} {g : Sums V} (h : Inv s g) (id : Nat) (v : V) (gb : Nat) :
    ∃ s', setPermTorque s id v (some gb) = .ok s' ∧ Inv s' g ∧ s'.nThreads = s.nThreads ∧ s'.synced = false ∧
      s'.permForceUsed = true ∧
      (∀ j, s'.permTorque.at' j = if j = id then v else if j < max id gb + 100 then s.permTorque.at' j else 0) ∧
      (∀ j, s'.permForce.at' j = if j < max id gb + 100 then s.permForce.at' j else 0) := by
  obtain ⟨tl, sh, sz, ev⟩ := h.shape
  have sh' := resizePerm_shape (n := newSize (max id gb)) sh
  have hl : id < (resizePerm s (newSize (max id gb))).permTorque.len := by
    simp only [resizePerm, Arr.resize_len, newSize_eq]; omega
  refine ⟨{ resizePerm s (newSize (max id gb)) with
      permTorque := ⟨(resizePerm s (newSize (max id gb))).permTorque.len, fun j => if j = id then v else
        (resizePerm s (newSize (max id gb))).permTorque.at' j⟩, synced := false, permForceUsed := true },
    ?_, ?_, rfl, rfl, rfl, ?_, ?_⟩
  · simp only [setPermTorque, ensureSizePerm, Arr.set, if_pos hl]
  · refine ⟨⟨tl, ⟨sh'.f, sh'.t, sh'.m, sh'.r, sh'.pf, ?_, sh'.plen, sh'.psz, sh'.tsz, sh'.tl⟩, ?_, by simp⟩,
      h.f, h.t, h.m, h.r, h.unusedM, by simp, by simp⟩
    · intro i hi
      have hi' : (resizePerm s (newSize (max id gb))).permTorque.len ≤ i := hi
      show (if i = id then v else _) = 0
      rw [if_neg (by omega)]
      exact sh'.pt i hi'
    · intro hc; simp [resizePerm] at hc
  · intro j
    show (if j = id then v else (s.permTorque.resize (newSize (max id gb))).at' j) = _
    rw [resize_at _ sh.pt, newSize_eq]
  · intro j
    show (s.permForce.resize (newSize (max id gb))).at' j = _
    rw [resize_at _ sh.pf, newSize_eq]

theorem anyMaxId_false {m : Nat → Nat} : ∀ n, (∀ i, i < n → m i = 0) → anyMaxId m n = false
  | 0, _ => rfl
  | n + 1, h => by simp [anyMaxId, anyMaxId_false n (fun i hi => h i (by omega)), h n (by omega)]

/-- `sync` succeeds; either it did nothing, or it summed. -/
theorem sync_inv {s : FC V} {g : Sums V} (h : Inv s g) :
    ∃ s', sync s = .ok s' ∧ Inv s' g ∧ s'.nThreads = s.nThreads ∧ s'.synced = true ∧
      anyMaxId s'.maxId s'.nThreads = false ∧ s'.permForceUsed = s.permForceUsed ∧
      s.syncCount ≤ s'.syncCount ∧
      (∀ j, s'.permForce.at' j = s.permForce.at' j) ∧ (∀ j, s'.permTorque.at' j = s.permTorque.at' j) := by
  obtain ⟨tl, sh, sz, ev⟩ := h.shape
  by_cases hq : anyMaxId s.maxId s.nThreads = false ∧ s.synced = true
  · refine ⟨s, ?_, h, rfl, hq.2, hq.1, rfl, Nat.le_refl _, fun _ => rfl, fun _ => rfl⟩
    simp [sync, hq.1, hq.2]
  · -- the state with the flag cleared
    let s0 : FC V := { s with synced := false }
    have h0 : (if anyMaxId s.maxId s.nThreads then { s with synced := false } else s) = s0 := by
      by_cases ha : anyMaxId s.maxId s.nThreads = true
      · simp [ha, s0]
      · have hs : s.synced = false := by
          cases hs : s.synced
          · rfl
          · exact absurd ⟨by simpa using ha, hs⟩ hq
        simp only [ha, s0]
        cases s; simp_all
    have sh0 : Shape s0 tl := ⟨sh.f, sh.t, sh.m, sh.r, sh.pf, sh.pt, sh.plen, sh.psz, sh.tsz, sh.tl⟩
    obtain ⟨a, b, c, d, e⟩ := growMaxIds_shape sh0 (show SzOk s0 tl from sz) s0.nThreads
    obtain ⟨a2, b2, c2, d2, sy2, z2, f2⟩ := syncSizes_shape a c
    have sm : Same s0 (syncSizes (growMaxIds s0 s0.nThreads)) := b.trans b2
    have hsi := sumsInside_of a2 c2
    generalize hS : syncSizes (growMaxIds s0 s0.nThreads) = S at *
    have hn : S.nThreads = s.nThreads := sm.n
    have hP : ∀ q : Arr V, (if S.permForceUsed then some S.permForce else none) = some q → q.WF ∧ q.len = S.size := by
      intro q hq
      split at hq
      · cases hq; exact ⟨a2.pf, c2.2.1⟩
      · cases hq
    have hP' : ∀ q : Arr V, (if S.permForceUsed then some S.permTorque else none) = some q → q.WF ∧ q.len = S.size := by
      intro q hq
      split at hq
      · cases hq; exact ⟨a2.pt, by rw [a2.plen]; exact c2.2.1⟩
      · cases hq
    have cm : CI (if S.moveRotUsed then S.m.total S.nThreads S.size none else S.m) S.nThreads S.sizeOfThreads S.size := by
      split
      · exact a2.m.total
      · exact a2.m
    have cr : CI (if S.moveRotUsed then S.r.total S.nThreads S.size none else S.r) S.nThreads S.sizeOfThreads S.size := by
      split
      · exact a2.r.total
      · exact a2.r
    have dm : (if S.moveRotUsed then S.m.total S.nThreads S.size none else S.m).data = S.m.data := by split <;> rfl
    have dr : (if S.moveRotUsed then S.r.total S.nThreads S.size none else S.r).data = S.r.data := by split <;> rfl
    have fF : ∀ id, csum S.f S.nThreads id = g.F id := fun id => by
      rw [hn, csum_congr sm.f]; exact h.f id
    have fT : ∀ id, csum S.t S.nThreads id = g.T id := fun id => by
      rw [hn, csum_congr sm.t]; exact h.t id
    have fM : ∀ id, csum S.m S.nThreads id = g.M id := fun id => by
      rw [hn, csum_congr sm.m]; exact h.m id
    have fR : ∀ id, csum S.r S.nThreads id = g.R id := fun id => by
      rw [hn, csum_congr sm.r]; exact h.r id
    have uM : S.moveRotUsed = false → (∀ th, th < S.nThreads → ∀ id, (S.m.data th).at' id = 0) ∧
        (∀ th, th < S.nThreads → ∀ id, (S.r.data th).at' id = 0) ∧ (∀ id, S.m.tot.at' id = 0) ∧
        (∀ id, S.r.tot.at' id = 0) := by
      intro hu
      obtain ⟨x, y, z, w⟩ := h.unusedM (by have := sm.mru; rw [hu] at this; exact this.symm)
      exact ⟨fun t' h' i => (sm.m t' (hn ▸ h') i).trans (x t' (hn ▸ h') i),
        fun t' h' i => (sm.r t' (hn ▸ h') i).trans (y t' (hn ▸ h') i),
        fun i => (sm.tm i).trans (z i), fun i => (sm.tr i).trans (w i)⟩
    have uP : S.permForceUsed = false → (∀ id, S.permForce.at' id = 0) ∧ (∀ id, S.permTorque.at' id = 0) := by
      intro hu
      obtain ⟨x, y⟩ := h.unusedP (by have := sm.pfu; rw [hu] at this; exact this.symm)
      exact ⟨fun i => (sm.pf i).trans (x i), fun i => (sm.pt i).trans (y i)⟩
    have ev' : Even (sumUp S) S.size := ⟨rfl, c2.2.1, c2.2.2⟩
    refine ⟨sumUp S, ?_, ?_, hn, rfl, ?_, ?_, ?_, ?_, ?_⟩
    · unfold sync
      simp only [h0]
      have : s0.synced = false := rfl
      simp only [this, hS, hsi]
      simp
    · refine ⟨⟨S.size, ⟨a2.f.total, a2.t.total, cm, cr, a2.pf, a2.pt, a2.plen, a2.psz, a2.tsz, Nat.le_refl _⟩,
        fun _ => ev', fun _ => ev'⟩, fF, fT, ?_, ?_, ?_, uP, ?_⟩
      · intro id
        show sumTo (fun th => ((if S.moveRotUsed then S.m.total S.nThreads S.size none else S.m).data th).at' id) _ = _
        rw [dm]; exact fM id
      · intro id
        show sumTo (fun th => ((if S.moveRotUsed then S.r.total S.nThreads S.size none else S.r).data th).at' id) _ = _
        rw [dr]; exact fR id
      · intro hu
        have hu' : S.moveRotUsed = false := hu
        simpa [sumUp, hu'] using uM hu'
      · intro _ id
        refine ⟨?_, ?_, ?_, ?_⟩
        · show (S.f.total S.nThreads S.size _).tot.at' id = g.F id + S.permForce.at' id
          rw [a2.f.total_at c2.2.2 hP id, fF]
          by_cases hu : S.permForceUsed = true
          · simp [hu, optAt]
          · have hu : S.permForceUsed = false := by simpa using hu
            simp [hu, optAt, (uP hu).1 id]
        · show (S.t.total S.nThreads S.size _).tot.at' id = g.T id + S.permTorque.at' id
          rw [a2.t.total_at c2.2.2 hP' id, fT]
          by_cases hu : S.permForceUsed = true
          · simp [hu, optAt]
          · have hu : S.permForceUsed = false := by simpa using hu
            simp [hu, optAt, (uP hu).2 id]
        · show (if S.moveRotUsed then S.m.total S.nThreads S.size none else S.m).tot.at' id = g.M id
          by_cases hu : S.moveRotUsed = true
          · simp only [hu, if_true]
            rw [a2.m.total_at c2.2.2 (by simp) id, fM]
            simp [optAt]
          · have hu : S.moveRotUsed = false := by simpa using hu
            have hz := uM hu
            simp only [hu, ← fM id]
            rw [csum, sumTo_congr _ (g := fun _ => 0) (fun i hi => hz.1 i hi id), sumTo_zero]
            exact hz.2.2.1 id
        · show (if S.moveRotUsed then S.r.total S.nThreads S.size none else S.r).tot.at' id = g.R id
          by_cases hu : S.moveRotUsed = true
          · simp only [hu, if_true]
            rw [a2.r.total_at c2.2.2 (by simp) id, fR]
            simp [optAt]
          · have hu : S.moveRotUsed = false := by simpa using hu
            have hz := uM hu
            simp only [hu, ← fR id]
            rw [csum, sumTo_congr _ (g := fun _ => 0) (fun i hi => hz.2.1 i hi id), sumTo_zero]
            exact hz.2.2.2 id
    · show anyMaxId S.maxId S.nThreads = false
      apply anyMaxId_false
      intro i hi
      rw [d2]
      exact e i (by rw [hn] at hi; exact hi)
    · exact sm.pfu
    · show s.syncCount ≤ S.syncCount + 1
      rw [sm.cnt]; exact Nat.le_succ _
    · exact sm.pf
    · exact sm.pt

theorem zeroData_ok {c : Chan V} {n : Nat} {sz : Nat → Nat} {tl : Nat} (h : CI c n sz tl) : ∀ k, k ≤ n →
    ∃ c', c.zeroData sz k = .ok c' ∧ CI c' n sz tl ∧ c'.tot = c.tot ∧
      (∀ th, th < k → ∀ id, (c'.data th).at' id = 0)
  | 0, _ => ⟨c, rfl, h, rfl, fun _ hth => absurd hth (by omega)⟩
  | k + 1, hk => by
    obtain ⟨c', e, ci, ct, z⟩ := zeroData_ok h k (by omega)
    have hl : sz k ≤ (c'.data k).len := by rw [ci.dlen k (by omega)]; exact Nat.le_refl _
    refine ⟨{ c' with data := fset c'.data k ⟨(c'.data k).len, fun j => if j < sz k then 0 else (c'.data k).at' j⟩ },
      by simp only [Chan.zeroData, e, Arr.zero, if_pos hl], ⟨?_, ?_, ci.twf, ci.tlen⟩, ct, ?_⟩
    · intro th hth
      by_cases he : th = k
      · subst he; simp [ci.dlen th hth]
      · simp [fset_other _ _ he, ci.dlen th hth]
    · intro th hth
      by_cases he : th = k
      · subst he
        simp only [fset_same]
        intro i hi
        show (if i < sz th then 0 else _) = 0
        split
        · rfl
        · exact ci.dwf th hth i hi
      · simp only [fset_other _ _ he]; exact ci.dwf th hth
    · intro th hth id
      by_cases he : th = k
      · subst he
        simp only [fset_same]
        split
        · rfl
        · exact ci.dwf th (by omega) id (by rw [ci.dlen th (by omega)]; omega)
      · simp only [fset_other _ _ he]; exact z th (by omega) id

theorem zeroAll_ok {c : Chan V} {n : Nat} {sz : Nat → Nat} {tl : Nat} (h : CI c n sz tl) :
    ∃ c', c.zeroAll sz n tl = .ok c' ∧ CI c' n sz tl ∧
      (∀ th, th < n → ∀ id, (c'.data th).at' id = 0) ∧ (∀ id, c'.tot.at' id = 0) := by
  obtain ⟨c', e, ci, ct, z⟩ := zeroData_ok h n (Nat.le_refl _)
  have hl : tl ≤ c'.tot.len := by rw [ci.tlen]; exact Nat.le_refl _
  refine ⟨{ c' with tot := ⟨c'.tot.len, fun j => if j < tl then 0 else c'.tot.at' j⟩ },
    by simp only [Chan.zeroAll, e, Arr.zero, if_pos hl], ⟨ci.dlen, ci.dwf, ?_, ci.tlen⟩, z, ?_⟩
  · intro i hi
    show (if i < tl then 0 else _) = 0
    split
    · rfl
    · exact ci.twf i hi
  · intro id
    show (if id < tl then 0 else _) = 0
    split
    · rfl
    · exact ci.twf id (by rw [ci.tlen]; omega)

theorem zero_ok {a : Arr V} (w : a.WF) {n : Nat} (h : a.len = n) :
    ∃ a', a.zero n = .ok a' ∧ a'.WF ∧ a'.len = n ∧ ∀ id, a'.at' id = 0 := by
  have hz : ∀ id, (if id < n then 0 else a.at' id) = 0 := by
    intro id
    split
    · rfl
    · exact w id (by omega)
  exact ⟨⟨a.len, fun j => if j < n then 0 else a.at' j⟩, by simp [Arr.zero, h], fun i _ => hz i, h, hz⟩

theorem zero_csum {c : Chan V} {n : Nat} (h : ∀ th, th < n → ∀ id, (c.data th).at' id = 0) (id : Nat) :
    csum c n id = 0 := by
  rw [csum, sumTo_congr _ (g := fun _ => 0) (fun i hi => h i hi id), sumTo_zero]

theorem reset_inv {s : FC V} {g : Sums V} (h : Inv s g) (iter : Int) (all : Bool) :
    ∃ s', reset s iter all = .ok s' ∧ Inv s' Sums.zero ∧ s'.nThreads = s.nThreads ∧
      s'.permForceUsed = (if all then false else s.permForceUsed) ∧ s'.synced = (!s'.permForceUsed) ∧
      (∀ j, s'.permForce.at' j = if all then 0 else s.permForce.at' j) ∧
      (∀ j, s'.permTorque.at' j = if all then 0 else s.permTorque.at' j) := by
  obtain ⟨tl, sh, sz, ev⟩ := h.shape
  obtain ⟨a2, sm, c2, d2, sy2, z2, f2⟩ := syncSizes_shape sh sz
  unfold reset
  generalize hS : syncSizes s = S at *
  have hn : S.nThreads = s.nThreads := sm.n
  obtain ⟨f, ef, cf, zf, tf⟩ := zeroAll_ok a2.f
  obtain ⟨t, et, ct, zt, tt⟩ := zeroAll_ok a2.t
  have hM : ∃ m, S.m.zeroIf S.moveRotUsed S.sizeOfThreads S.nThreads S.size = Res.ok m ∧
      CI m S.nThreads S.sizeOfThreads S.size ∧ (∀ th, th < S.nThreads → ∀ id, (m.data th).at' id = 0) ∧
      (∀ id, m.tot.at' id = 0) := by
    by_cases hu : S.moveRotUsed = true
    · simp only [Chan.zeroIf, hu, if_true]; exact zeroAll_ok a2.m
    · have hu : S.moveRotUsed = false := by simpa using hu
      obtain ⟨x, y, z, w⟩ := h.unusedM (by rw [← sm.mru]; exact hu)
      refine ⟨S.m, by simp [Chan.zeroIf, hu], a2.m, fun t' h' i => (sm.m t' (hn ▸ h') i).trans (x t' (hn ▸ h') i),
        fun i => (sm.tm i).trans (z i)⟩
  have hR : ∃ m, S.r.zeroIf S.moveRotUsed S.sizeOfThreads S.nThreads S.size = Res.ok m ∧
      CI m S.nThreads S.sizeOfThreads S.size ∧ (∀ th, th < S.nThreads → ∀ id, (m.data th).at' id = 0) ∧
      (∀ id, m.tot.at' id = 0) := by
    by_cases hu : S.moveRotUsed = true
    · simp only [Chan.zeroIf, hu, if_true]; exact zeroAll_ok a2.r
    · have hu : S.moveRotUsed = false := by simpa using hu
      obtain ⟨x, y, z, w⟩ := h.unusedM (by rw [← sm.mru]; exact hu)
      refine ⟨S.r, by simp [Chan.zeroIf, hu], a2.r, fun t' h' i => (sm.r t' (hn ▸ h') i).trans (y t' (hn ▸ h') i),
        fun i => (sm.tr i).trans (w i)⟩
  have hPF : ∃ a, S.permForce.zeroIf all S.size = Res.ok a ∧ a.WF ∧ a.len = S.size ∧
      ∀ id, a.at' id = if all then 0 else s.permForce.at' id := by
    cases all
    · exact ⟨S.permForce, rfl, a2.pf, c2.2.1, fun id => sm.pf id⟩
    · obtain ⟨a, x, y, z, w⟩ := zero_ok a2.pf c2.2.1
      exact ⟨a, x, y, z, w⟩
  have hPT : ∃ a, S.permTorque.zeroIf all S.size = Res.ok a ∧ a.WF ∧ a.len = S.size ∧
      ∀ id, a.at' id = if all then 0 else s.permTorque.at' id := by
    have hl : S.permTorque.len = S.size := by rw [a2.plen]; exact c2.2.1
    cases all
    · exact ⟨S.permTorque, rfl, a2.pt, hl, fun id => sm.pt id⟩
    · obtain ⟨a, x, y, z, w⟩ := zero_ok a2.pt hl
      exact ⟨a, x, y, z, w⟩
  obtain ⟨m, em, cm, zm, tm⟩ := hM
  obtain ⟨r, er, cr, zr, tr⟩ := hR
  obtain ⟨pf, epf, wpf, lpf, vpf⟩ := hPF
  obtain ⟨pt, ept, wpt, lpt, vpt⟩ := hPT
  refine ⟨{ S with f := f, t := t, m := m, r := r, permForce := pf, permTorque := pt,
                   permForceUsed := if all then false else S.permForceUsed,
                   synced := !(if all then false else S.permForceUsed), moveRotUsed := false, lastReset := iter },
    ?_, ?_, hn, ?_, rfl, vpf, vpt⟩
  · simp only [resetSynced, ef, et, em, er, epf, ept]
    rfl
  · have uP : (if all then false else S.permForceUsed) = false → (∀ id, pf.at' id = 0) ∧ (∀ id, pt.at' id = 0) := by
      intro hu
      cases all
      · have hu : S.permForceUsed = false := hu
        obtain ⟨x, y⟩ := h.unusedP (by rw [← sm.pfu]; exact hu)
        exact ⟨fun id => (vpf id).trans (x id), fun id => (vpt id).trans (y id)⟩
      · exact ⟨vpf, vpt⟩
    refine ⟨⟨S.size, ⟨cf, ct, cm, cr, wpf, wpt, lpt.trans lpf.symm, Nat.le_of_eq lpf, a2.tsz, Nat.le_refl _⟩,
        fun _ => ⟨rfl, lpf, c2.2.2⟩, fun _ => ⟨rfl, lpf, c2.2.2⟩⟩,
      zero_csum zf, zero_csum zt, zero_csum zm, zero_csum zr, fun _ => ⟨zm, zr, tm, tr⟩, uP, ?_⟩
    intro hs id
    have hu : (if all then false else S.permForceUsed) = false := by
      have : (!(if all then false else S.permForceUsed)) = true := hs
      cases hh : (if all then false else S.permForceUsed)
      · rfl
      · rw [hh] at this; cases this
    obtain ⟨p1, p2⟩ := uP hu
    exact ⟨by rw [tf id]; simp [Sums.zero, p1 id], by rw [tt id]; simp [Sums.zero, p2 id], tm id, tr id⟩
  · show (if all then false else S.permForceUsed) = _
    rw [sm.pfu]

/-- a synchronised container returns what its totals say -/
theorem read_ok {s : FC V} {a : Arr V} (hs : s.synced = true) (hl : a.len = s.size) (w : a.WF) (id : Nat) :
    readSynced s a id = .ok (a.at' id) := by
  simp only [readSynced, hs]
  by_cases h : id < s.size
  · simp [h, Arr.get, hl]
  · simp [h, w id (by omega)]

/-- all reads of a synchronised container -/
theorem reads_ok {s : FC V} {g : Sums V} (h : Inv s g) (hs : s.synced = true) (id : Nat) :
    getForce s id = .ok (g.F id + s.permForce.at' id) ∧ getTorque s id = .ok (g.T id + s.permTorque.at' id) ∧
    getMove s id = .ok (g.M id) ∧ getRot s id = .ok (g.R id) ∧
    getPermForce s id = .ok (s.permForce.at' id) ∧ getPermTorque s id = .ok (s.permTorque.at' id) := by
  obtain ⟨tl, sh, sz, ev⟩ := h.shape
  have e := ev hs
  obtain ⟨t1, t2, t3, t4⟩ := h.tot hs id
  have l : ∀ {c : Chan V}, CI c s.nThreads s.sizeOfThreads tl → c.tot.len = s.size := fun c => c.tlen.trans e.1
  refine ⟨?_, ?_, ?_, ?_, read_ok hs e.2.1 sh.pf id, read_ok hs (sh.plen.trans e.2.1) sh.pt id⟩
  · rw [← t1]; exact read_ok hs (l sh.f) sh.f.twf id
  · rw [← t2]; exact read_ok hs (l sh.t) sh.t.twf id
  · rw [← t3]; exact read_ok hs (l sh.m) sh.m.twf id
  · rw [← t4]; exact read_ok hs (l sh.r) sh.r.twf id

/-- an unsynchronised container throws -/
theorem reads_throw {s : FC V} (hs : s.synced = false) (id : Nat) :
    getForce s id = .throws ∧ getTorque s id = .throws ∧ getMove s id = .throws ∧ getRot s id = .throws ∧
    getPermForce s id = .throws ∧ getPermTorque s id = .throws := by
  simp [getForce, getTorque, getMove, getRot, getPermForce, getPermTorque, readSynced, hs]

/-- reads that need no synchronisation -/
theorem sumSingle_eq {s : FC V} {g : Sums V} (h : Inv s g) (id : Nat) :
    sumSingle s s.f id = g.F id ∧ sumSingle s s.t id = g.T id ∧ sumSingle s s.m id = g.M id ∧
    sumSingle s s.r id = g.R id := by
  obtain ⟨tl, sh, sz, ev⟩ := h.shape
  have k : ∀ {c : Chan V}, CI c s.nThreads s.sizeOfThreads tl → sumSingle s c id = csum c s.nThreads id := by
    intro c ci
    apply sumTo_congr
    intro th hth
    show (if id < s.sizeOfThreads th then (c.data th).at' id else 0) = _
    split
    · rfl
    · exact (ci.dwf th hth id (by rw [ci.dlen th hth]; omega)).symm
  exact ⟨(k sh.f).trans (h.f id), (k sh.t).trans (h.t id), (k sh.m).trans (h.m id), (k sh.r).trans (h.r id)⟩

end Verif.Forces
