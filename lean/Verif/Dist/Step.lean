import Verif.Dist.Exchange
import Mathlib.Algebra.BigOperators.Group.Finset.Sigma

/-! One iteration of all processes against one iteration of the world. -/

namespace Verif.Dist

section
variable {K M R C F T : Type} [AddCommMonoid F]

/-- What a split has to give each process, for bodies `i` of the process `own i` and processes `0, …, n-1`. -/
structure Fits (u : Setup K F T) (own : ℕ → ℕ) (n : ℕ) (c : Comm) (ss : ℕ → Scene K M R C F T) : Prop where
  owner : ∀ i ∈ u.ids, own i < n
  rank : ∀ w < n, (ss w).rank = w
  dt : ∀ w < n, (ss w).dt = u.dt
  bodies : ∀ w < n, ∀ i b, (ss w).body i = some b → i ∈ u.ids ∧ b.sub = own i ∧ b.k = u.k i
  mine : ∀ w < n, ∀ i ∈ u.ids, own i = w → ((ss w).body i).isSome
  proper : ∀ w < n, ProperList (ss w).intrs
  /-- The master has no interactions of its bodies with bodies of workers. -/
  clean : ∀ I ∈ (ss 0).intrs, own I.id1 = 0 ↔ own I.id2 = 0
  /-- Neighbours agree about the bodies whose states they exchange, which are bodies of the sender and are known to the receiver. -/
  lists : ∀ w < n, w ≠ 0 → ∀ v ∈ c.nbr w, v < n ∧ v ≠ w ∧ c.mir w v = c.inter v w ∧
    ∀ i ∈ c.inter v w, i ∈ u.ids ∧ own i = v ∧ ((ss w).body i).isSome
  /-- A worker is sent the states of the remote bodies its own bodies have interactions with. -/
  ghosts : ∀ w < n, w ≠ 0 → ∀ i j, own i = w → own j ≠ w → Listed (ss w).intrs i j → own j ∈ c.nbr w ∧ j ∈ c.mir w (own j)
  /-- The master listens to the workers whose bodies have interactions with its own. -/
  report : ∀ w < n, w ≠ 0 → ∀ i j, own i = w → own j = 0 → Listed (ss w).intrs i j → w ∈ c.nbr 0
  nodup : (c.nbr 0).Nodup ∧ ∀ w ∈ c.nbr 0, w ≠ 0 ∧ w < n ∧ (c.mir w 0).Nodup
  permMaster : ∀ i ∈ u.ids, own i = 0 → (ss 0).perm i = u.perm i
  permWorker : ∀ w < n, w ≠ 0 → ∀ i, (ss w).perm i = 0
  /-- Only bodies of the master have permanent forces. -/
  noPerm : ∀ i ∈ u.ids, own i ≠ 0 → u.perm i = 0

/-- Differences between a process and the world that have no effect on forces and motions. -/
structure Compat (n : ℕ) (p : Phys K M R C F T) (swap : C → C) (ρ : R → R → Prop) (σ : Option C → Option C → Prop) : Prop where
  even : EvenHanded p swap
  reads : ReadsMotion p ∨ (n ≤ 1 ∧ ∀ r r', ρ r r' → r = r')
  dt : ConstantDt p
  none : σ none none
  swap : ∀ c c', σ c c' → σ (c.map swap) (c'.map swap)
  con : ∀ t k1 m1 r1 k2 m2 r2 c c', σ c c' → σ (p.law t k1 m1 r1 k2 m2 r2 c).1 (p.law t k1 m1 r1 k2 m2 r2 c').1
  force : ∀ t k1 m1 r1 k2 m2 r2 c c', σ c c' → (p.law t k1 m1 r1 k2 m2 r2 c).2 = (p.law t k1 m1 r1 k2 m2 r2 c').2
  move : ∀ t f k m r r', ρ r r' → (p.newton t f k m r).1 = (p.newton t f k m r').1 ∧ ρ (p.newton t f k m r).2 (p.newton t f k m r').2

/-- The scenes of the processes agree with the world. -/
structure Inv (u : Setup K F T) (own : ℕ → ℕ) (n : ℕ) (c : Comm) (swap : C → C) (ρ : R → R → Prop)
    (σ : Option C → Option C → Prop) (x : World M R C) (ss : ℕ → Scene K M R C F T) : Prop where
  fits : Fits u own n c ss
  sym : TwoSided swap x
  state : ∀ w < n, ∀ i ∈ u.ids, own i = w → ∀ b, (ss w).body i = some b → b.m = x.m i ∧ ρ b.r (x.r i)
  ghost : ∀ w < n, w ≠ 0 → ∀ v ∈ c.nbr w, ∀ i ∈ c.inter v w, ∀ b, (ss w).body i = some b → b.m = x.m i
  con : ∀ w < n, ∀ i ∈ u.ids, own i = w → ∀ j ∈ u.ids, j ≠ i → (w ≠ 0 ∨ own j = 0) →
    σ ((view swap (ss w).intrs i j).getD none) (x.con i j)

theorem apart_symm {p : Phys K M R C F T} {swap : C → C} (h : EvenHanded p swap) {u : Setup K F T} {x : World M R C}
    (hx : ∀ i j, x.con j i = (x.con i j).map swap) {i j : ℕ} (ha : Apart p u x i j) : Apart p u x j i := by
  unfold Apart pairLaw at *
  rw [hx i j, h.law, ha]; rfl

/-- One pair of bodies in one process. -/
theorem term {p : Phys K M R C F T} {swap : C → C} {ρ : R → R → Prop} {σ : Option C → Option C → Prop} {n : ℕ} (hc : Compat n p swap ρ σ)
    {u : Setup K F T} {x : World M R C} {s : Scene K M R C F T} {i j : ℕ} (hdt : s.dt = u.dt)
    (hl : ¬ Listed s.intrs i j → Apart p u x i j)
    (hb : Listed s.intrs i j → ∃ a b, s.body i = some a ∧ s.body j = some b ∧ a.k = u.k i ∧ b.k = u.k j ∧ a.m = x.m i ∧ b.m = x.m j ∧
      (s.rank = a.sub ∨ s.rank = b.sub) ∧ (ReadsMotion p ∨ (a.r = x.r i ∧ b.r = x.r j)))
    (hσ : σ ((view swap s.intrs i j).getD none) (x.con i j)) :
    (view swap s.intrs i j).elim 0 (contrib p s i j) = (pairLaw p u x i j).2.1 ∧
      σ ((view swap (loopIntrs p s) i j).getD none) (pairLaw p u x i j).1 := by
  unfold loopIntrs
  rw [view_map hc.even]
  by_cases h : Listed s.intrs i j
  · obtain ⟨a, b, ha, hb, ka, kb, ma, mb, hr, hrm⟩ := hb h
    obtain ⟨v, hv⟩ := Option.isSome_iff_exists.1 ((view_isSome swap s.intrs i j).2 h)
    rw [hv] at hσ ⊢
    have hr' : ¬ (s.rank ≠ a.sub ∧ s.rank ≠ b.sub) := by
      rintro ⟨h1, h2⟩; rcases hr with h | h <;> contradiction
    simp only [Option.elim_some, Option.map_some, Option.getD_some] at hσ ⊢
    unfold contrib newCon pairLaw
    rw [ha, hb]
    simp only
    have hlaw : p.law u.dt (u.k i) (x.m i) a.r (u.k j) (x.m j) b.r v = p.law u.dt (u.k i) (x.m i) (x.r i) (u.k j) (x.m j) (x.r j) v := by
      rcases hrm with hrm | ⟨e1, e2⟩
      · exact hrm _ _ _ a.r (x.r i) _ _ b.r (x.r j) _
      · rw [e1, e2]
    rw [if_neg hr', if_neg hr', hdt, ka, kb, ma, mb, hlaw]
    exact ⟨by rw [hc.force _ _ _ _ _ _ _ _ _ hσ], hc.con _ _ _ _ _ _ _ _ _ hσ⟩
  · have hn := (view_none swap s.intrs i j).2 h
    have ha := hl h
    unfold Apart at ha
    rw [hn, ha]
    exact ⟨rfl, hc.none⟩

variable {p : Phys K M R C F T} {swap : C → C} {ρ : R → R → Prop} {σ : Option C → Option C → Prop}
  {u : Setup K F T} {own : ℕ → ℕ} {n : ℕ} {c : Comm} {x : World M R C} {ss : ℕ → Scene K M R C F T}

/-- The body of the process itself. -/
theorem Inv.own_body (h : Inv u own n c swap ρ σ x ss) {w i : ℕ} (hw : w < n) (hi : i ∈ u.ids) (ho : own i = w) :
    ∃ b, (ss w).body i = some b ∧ b.sub = w ∧ b.k = u.k i ∧ b.m = x.m i ∧ ρ b.r (x.r i) := by
  obtain ⟨b, hb⟩ := Option.isSome_iff_exists.1 (h.fits.mine w hw i hi ho)
  have h1 := h.fits.bodies w hw i b hb
  have h2 := h.state w hw i hi ho b hb
  exact ⟨b, hb, h1.2.1.trans ho, h1.2.2, h2⟩

/-- The other body of an interaction of a body of the process. -/
theorem Inv.other_body (h : Inv u own n c swap ρ σ x ss) {w i j : ℕ} (hw : w < n) (hi : i ∈ u.ids) (ho : own i = w) (hjid : j ∈ u.ids)
    (hl : Listed (ss w).intrs i j) : ∃ b, (ss w).body j = some b ∧ b.k = u.k j ∧ b.m = x.m j ∧ (n ≤ 1 → ρ b.r (x.r j)) := by
  by_cases hj : own j = w
  · obtain ⟨b, h1, _, h3, h4, h5⟩ := h.own_body hw hjid hj
    exact ⟨b, h1, h3, h4, fun _ => h5⟩
  · have hw0 : w ≠ 0 := by
      rintro rfl
      obtain ⟨I, hI, hI'⟩ := hl
      have := h.fits.clean I hI
      rcases hI' with ⟨h1, h2⟩ | ⟨h1, h2⟩
      · rw [h1, h2] at this; exact hj (this.1 ho)
      · rw [h1, h2] at this; exact hj (this.2 ho)
    obtain ⟨g1, g2⟩ := h.fits.ghosts w hw hw0 i j ho hj hl
    obtain ⟨_, _, g3, g4⟩ := h.fits.lists w hw hw0 _ g1
    rw [g3] at g2
    obtain ⟨b, hb⟩ := Option.isSome_iff_exists.1 (g4 j g2).2.2
    exact ⟨b, hb, (h.fits.bodies w hw j b hb).2.2, h.ghost w hw hw0 _ g1 j g2 b hb, fun hn => (hw0 (Nat.lt_one_iff.1 (Nat.lt_of_lt_of_le hw hn))).elim⟩

theorem Inv.bodies_ids (h : Inv u own n c swap ρ σ x ss) {w : ℕ} (hw : w < n) (i : ℕ) (hb : ((ss w).body i).isSome) : i ∈ u.ids := by
  obtain ⟨b, hb⟩ := Option.isSome_iff_exists.1 hb
  exact (h.fits.bodies w hw i b hb).1

/-- A pair seen from a body of the process. -/
theorem Inv.term (h : Inv u own n c swap ρ σ x ss) (hc : Compat n p swap ρ σ) (hq : Complete p u own n x ss) {w i j : ℕ} (hw : w < n)
    (hi : i ∈ u.ids) (ho : own i = w) (hj : j ∈ u.ids) (hji : j ≠ i) (hcare : w ≠ 0 ∨ own j = 0) :
    (view swap (ss w).intrs i j).elim 0 (contrib p (ss w) i j) = (pairLaw p u x i j).2.1 ∧
      σ ((view swap (loopIntrs p (ss w)) i j).getD none) (pairLaw p u x i j).1 := by
  refine Dist.term hc (h.fits.dt w hw) (hq w hw i hi ho j hj hji hcare) ?_ (h.con w hw i hi ho j hj hji hcare)
  intro hl
  obtain ⟨a, h1, h2, h3, h4, h8⟩ := h.own_body hw hi ho
  obtain ⟨b, h5, h6, h7, h9⟩ := h.other_body hw hi ho hj hl
  exact ⟨a, b, h1, h5, h3, h6, h4, h7, .inl ((h.fits.rank w hw).trans h2.symm), hc.reads.imp_right fun e => ⟨e.2 _ _ h8, e.2 _ _ (h9 e.1)⟩⟩

/-- The forces of a worker on its own bodies. -/
theorem Inv.forces_worker (h : Inv u own n c swap ρ σ x ss) (hc : Compat n p swap ρ σ) (hq : Complete p u own n x ss) {w i : ℕ} (hw : w < n)
    (hw0 : w ≠ 0) (hi : i ∈ u.ids) (ho : own i = w) : forces p (ss w) i = totalForce p u x i := by
  unfold forces
  rw [loopForces_eq hc.even (ss w) u.ids (h.bodies_ids hw) _ (h.fits.proper w hw), zero_add, totalForce]
  refine Finset.sum_congr rfl ?_
  intro j hj
  rw [Finset.mem_erase] at hj
  exact (h.term hc hq hw hi ho hj.2 hj.1 (.inl hw0)).1

/-- The forces of the master alone on its own bodies. -/
theorem Inv.forces_master (h : Inv u own n c swap ρ σ x ss) (hc : Compat n p swap ρ σ) (hq : Complete p u own n x ss) {i : ℕ} (hn : 0 < n)
    (hi : i ∈ u.ids) (ho : own i = 0) :
    forces p (ss 0) i = ∑ j ∈ (u.ids.erase i).filter (fun j => own j = 0), (pairLaw p u x i j).2.1 := by
  unfold forces
  rw [loopForces_eq hc.even (ss 0) u.ids (h.bodies_ids hn) _ (h.fits.proper 0 hn), zero_add, Finset.sum_filter]
  refine Finset.sum_congr rfl ?_
  intro j hj
  rw [Finset.mem_erase] at hj
  by_cases h0 : own j = 0
  · rw [if_pos h0]
    exact (h.term hc hq hn hi ho hj.2 hj.1 (.inr h0)).1
  · rw [if_neg h0]
    have : ¬ Listed (ss 0).intrs i j := by
      rintro ⟨I, hI, hI'⟩
      have := h.fits.clean I hI
      rcases hI' with ⟨h1, h2⟩ | ⟨h1, h2⟩
      · rw [h1, h2] at this; exact h0 (this.1 ho)
      · rw [h1, h2] at this; exact h0 (this.2 ho)
    rw [(view_none swap _ _ _).2 this]; rfl

/-- The forces of a worker on bodies of the master. -/
theorem Inv.forces_report (h : Inv u own n c swap ρ σ x ss) (hc : Compat n p swap ρ σ) (hq : Complete p u own n x ss) {w i : ℕ} (hw : w < n)
    (hw0 : w ≠ 0) (hi : i ∈ u.ids) (ho : own i = 0) :
    forces p (ss w) i = ∑ j ∈ (u.ids.erase i).filter (fun j => own j = w), (pairLaw p u x i j).2.1 := by
  unfold forces
  rw [loopForces_eq hc.even (ss w) u.ids (h.bodies_ids hw) _ (h.fits.proper w hw), zero_add, Finset.sum_filter]
  refine Finset.sum_congr rfl ?_
  intro j hj
  rw [Finset.mem_erase] at hj
  by_cases hjw : own j = w
  · rw [if_pos hjw]
    refine (Dist.term hc (h.fits.dt w hw) ?_ ?_ ?_).1
    · intro hl
      exact apart_symm hc.even h.sym (hq w hw j hj.2 hjw i hi hj.1.symm (.inl hw0) fun hl' => hl ((listed_comm _ _ _).1 hl'))
    · intro hl
      have hl' := (listed_comm _ _ _).1 hl
      obtain ⟨a, h1, h2, h3, h4, h8⟩ := h.own_body hw hj.2 hjw
      obtain ⟨b, h5, h6, h7, h9⟩ := h.other_body hw hj.2 hjw hi hl'
      exact ⟨b, a, h5, h1, h6, h3, h7, h4, .inr ((h.fits.rank w hw).trans h2.symm), hc.reads.imp_right fun e => ⟨e.2 _ _ (h9 e.1), e.2 _ _ h8⟩⟩
    · have := hc.swap _ _ (h.con w hw j hj.2 hjw i hi hj.1.symm (.inl hw0))
      rw [← h.sym j i] at this
      rw [view_swap hc.even.twice _ (h.fits.proper w hw).2 j i]
      cases hv : view swap (ss w).intrs j i with
      | none => rw [hv] at this; exact this
      | some v => rw [hv] at this; exact this
  · rw [if_neg hjw]
    cases hv : view swap (ss w).intrs i j with
    | none => rfl
    | some v =>
      simp only [Option.elim_some]
      unfold contrib
      cases ha : (ss w).body i with
      | none => rfl
      | some a =>
        cases hb : (ss w).body j with
        | none => rfl
        | some b =>
          have h1 := (h.fits.bodies w hw i a ha).2.1
          have h2 := (h.fits.bodies w hw j b hb).2.1
          simp only
          rw [if_pos]
          rw [h.fits.rank w hw, h1, h2, ho]
          exact ⟨hw0, fun e => hjw e.symm⟩

/-- Forces when the integrator runs. -/
theorem Inv.forcesAt (h : Inv u own n c swap ρ σ x ss) (hc : Compat n p swap ρ σ) (hq : Complete p u own n x ss) {w i : ℕ} (hw : w < n)
    (hi : i ∈ u.ids) (ho : own i = w) : forcesAt p c ss w i = totalForce p u x i := by
  unfold Dist.forcesAt
  by_cases hw0 : w = 0
  · subst hw0
    rw [if_pos rfl, masterForces_eq p c ss _ fun v hv => (h.fits.nodup.2 v hv).2.2]
    have e1 : ((c.nbr 0).map fun w => if i ∈ c.mir w 0 then forces p (ss w) i + (ss w).perm i else 0).sum =
        ∑ w ∈ (Finset.range n).erase 0, ∑ j ∈ (u.ids.erase i).filter (fun j => own j = w), (pairLaw p u x i j).2.1 := by
      rw [← List.sum_toFinset _ h.fits.nodup.1]
      have hsub : (c.nbr 0).toFinset ⊆ (Finset.range n).erase 0 := by
        intro v hv
        rw [List.mem_toFinset] at hv
        have := h.fits.nodup.2 v hv
        exact Finset.mem_erase.2 ⟨this.1, Finset.mem_range.2 this.2.1⟩
      rw [← Finset.sum_subset hsub]
      · refine Finset.sum_congr rfl ?_
        intro v hv
        rw [List.mem_toFinset] at hv
        obtain ⟨v0, vn, _⟩ := h.fits.nodup.2 v hv
        by_cases hm : i ∈ c.mir v 0
        · rw [if_pos hm, h.fits.permWorker v vn v0, add_zero, h.forces_report hc hq vn v0 hi ho]
        · rw [if_neg hm]
          symm
          refine Finset.sum_eq_zero ?_
          intro j hj
          rw [Finset.mem_filter, Finset.mem_erase] at hj
          have : Apart p u x i j := by
            refine apart_symm hc.even h.sym (hq v vn j hj.1.2 hj.2 i hi hj.1.1.symm (.inl v0) ?_)
            intro hl
            have := (h.fits.ghosts v vn v0 j i hj.2 (by rw [ho]; exact fun e => v0 e.symm) hl).2
            rw [ho] at this
            exact hm this
          unfold Apart at this
          rw [this]
      · intro v hv hnv
        rw [Finset.mem_erase, Finset.mem_range] at hv
        rw [List.mem_toFinset] at hnv
        refine Finset.sum_eq_zero ?_
        intro j hj
        rw [Finset.mem_filter, Finset.mem_erase] at hj
        have : Apart p u x i j := by
          refine apart_symm hc.even h.sym (hq v hv.2 j hj.1.2 hj.2 i hi hj.1.1.symm (.inl hv.1) ?_)
          intro hl
          exact hnv (h.fits.report v hv.2 hv.1 j i hj.2 ho hl)
        unfold Apart at this
        rw [this]
    rw [e1, h.forces_master hc hq hw hi ho]
    have e2 := Finset.sum_fiberwise_of_maps_to (s := u.ids.erase i) (t := Finset.range n) (g := own)
      (fun j hj => Finset.mem_range.2 (h.fits.owner j (Finset.mem_of_mem_erase hj))) (fun j => (pairLaw p u x i j).2.1)
    rw [totalForce, ← e2, ← Finset.add_sum_erase _ _ (Finset.mem_range.2 hw)]
  · rw [if_neg hw0]
    exact h.forces_worker hc hq hw hw0 hi ho

/-- What the integrator leaves in each process. -/
theorem moved_other (h : Inv u own n c swap ρ σ x ss) {w i : ℕ} (hw : w < n) (ho : own i ≠ w) : (moved p c ss w).body i = (ss w).body i := by
  unfold moved newtonAll afterLoop
  simp only
  cases hb : (ss w).body i with
  | none => rfl
  | some b =>
    have := (h.fits.bodies w hw i b hb).2.1
    rw [Option.map_some, if_neg]
    rw [this, h.fits.rank w hw]; exact ho

theorem moved_shape (w i : ℕ) :
    ((moved p c ss w).body i).map (fun b => (b.sub, b.k)) = ((ss w).body i).map fun b => (b.sub, b.k) := by
  unfold moved newtonAll afterLoop
  simp only
  cases (ss w).body i with
  | none => rfl
  | some b =>
    simp only [Option.map_some]
    split_ifs <;> rfl

theorem moved_own (h : Inv u own n c swap ρ σ x ss) (hc : Compat n p swap ρ σ) (hq : Complete p u own n x ss) {w i : ℕ} (hw : w < n)
    (hi : i ∈ u.ids) (ho : own i = w) :
    ∃ b, (moved p c ss w).body i = some b ∧ b.m = (advance p u x).m i ∧ ρ b.r ((advance p u x).r i) := by
  obtain ⟨b, h1, h2, h3, h4, h5⟩ := h.own_body hw hi ho
  have hf := h.forcesAt hc hq hw hi ho
  have hperm : (ss w).perm i = u.perm i := by
    by_cases hw0 : w = 0
    · subst hw0; exact h.fits.permMaster i hi ho
    · rw [h.fits.permWorker w hw hw0, h.fits.noPerm i hi (by rw [ho]; exact hw0)]
  have hd : (afterLoop p (ss w)).dt = u.dt := (hc.dt _).trans (h.fits.dt w hw)
  have hm := hc.move u.dt (totalForce p u x i + u.perm i) (u.k i) (x.m i) b.r (x.r i) h5
  refine ⟨{ b with m := (p.newton u.dt (totalForce p u x i + u.perm i) (u.k i) (x.m i) b.r).1, r := (p.newton u.dt (totalForce p u x i + u.perm i) (u.k i) (x.m i) b.r).2 }, ?_, hm.1, hm.2⟩
  have e : (afterLoop p (ss w)).body = (ss w).body := rfl
  have e' : (afterLoop p (ss w)).rank = (ss w).rank := rfl
  have e'' : (afterLoop p (ss w)).perm = (ss w).perm := rfl
  unfold moved newtonAll
  simp only
  rw [e, e', e'', h1, Option.map_some, if_pos (h2.trans (h.fits.rank w hw).symm), hd, hf, hperm, h3, h4]

theorem received_zero (ms : ℕ → Scene K M R C F T) : received c ms 0 = ms 0 := rfl

/-- The bodies of a worker after the exchange of states. -/
theorem received_worker (h : Inv u own n c swap ρ σ x ss) (hc : Compat n p swap ρ σ) (hq : Complete p u own n x ss) {w : ℕ} (hw : w < n)
    (hw0 : w ≠ 0) (i : ℕ) :
    ((∃ v ∈ c.nbr w, i ∈ c.inter v w) → (received c (moved p c ss) w).body i =
        ((moved p c ss w).body i).map fun b => { b with m := (advance p u x).m i }) ∧
      ((¬ ∃ v ∈ c.nbr w, i ∈ c.inter v w) → (received c (moved p c ss) w).body i = (moved p c ss w).body i) := by
  have e : (received c (moved p c ss) w).body = recvFrom c (moved p c ss) w (c.nbr w) (moved p c ss w).body := by
    unfold received; rw [if_neg hw0]
  rw [e]
  refine recvFrom_eq c (moved p c ss) w (advance p u x).m (c.nbr w) ?_ _ i
  intro v hv
  obtain ⟨g1, _, g3, g4⟩ := h.fits.lists w hw hw0 v hv
  refine ⟨g3, fun j hj => ?_⟩
  obtain ⟨b, h1, h2, _⟩ := moved_own h hc hq g1 (g4 j hj).1 (g4 j hj).2.1
  rw [h1, Option.map_some, h2]

theorem received_shape (h : Inv u own n c swap ρ σ x ss) (hc : Compat n p swap ρ σ) (hq : Complete p u own n x ss) {w : ℕ} (hw : w < n) (i : ℕ) :
    ((received c (moved p c ss) w).body i).map (fun b => (b.sub, b.k)) = ((ss w).body i).map fun b => (b.sub, b.k) := by
  rw [← moved_shape (p := p) (c := c) (ss := ss) w i]
  by_cases hw0 : w = 0
  · subst hw0; rfl
  · by_cases hi : ∃ v ∈ c.nbr w, i ∈ c.inter v w
    · rw [(received_worker h hc hq hw hw0 i).1 hi, Option.map_map]; rfl
    · rw [(received_worker h hc hq hw hw0 i).2 hi]

theorem received_rest (w : ℕ) : (received c (moved p c ss) w).rank = (ss w).rank ∧
    (received c (moved p c ss) w).intrs = loopIntrs p (ss w) ∧ (received c (moved p c ss) w).perm = (ss w).perm ∧
    (received c (moved p c ss) w).dt = (afterLoop p (ss w)).dt := by
  unfold received
  by_cases hw0 : w = 0
  · subst hw0; exact ⟨rfl, rfl, rfl, rfl⟩
  · rw [if_neg hw0]; exact ⟨rfl, rfl, rfl, rfl⟩

theorem isSome_of_shape {a b : Option (Body K M R)} (h : a.map (fun b => (b.sub, b.k)) = b.map fun b => (b.sub, b.k)) :
    a.isSome = b.isSome := by
  cases a <;> cases b <;> simp_all

theorem fits_next (h : Fits u own n c ss) (hdt : ConstantDt p) {ss' : ℕ → Scene K M R C F T}
    (hs : ∀ w < n, ∀ i, ((ss' w).body i).map (fun b => (b.sub, b.k)) = ((ss w).body i).map fun b => (b.sub, b.k))
    (hr : ∀ w < n, (ss' w).rank = (ss w).rank ∧ (ss' w).intrs = loopIntrs p (ss w) ∧ (ss' w).perm = (ss w).perm ∧
      (ss' w).dt = (afterLoop p (ss w)).dt) (hn : 0 < n) : Fits u own n c ss' := by
  have hsome : ∀ w < n, ∀ i, ((ss' w).body i).isSome = ((ss w).body i).isSome := fun w hw i => isSome_of_shape (hs w hw i)
  have hlist : ∀ w < n, ∀ i j, Listed (ss' w).intrs i j ↔ Listed (ss w).intrs i j := by
    intro w hw i j
    rw [(hr w hw).2.1]; exact listed_map p (ss w) _ i j
  refine ⟨h.owner, fun w hw => (hr w hw).1.trans (h.rank w hw), ?_, ?_, ?_, ?_, ?_, ?_, ?_, ?_, h.nodup, ?_, ?_, h.noPerm⟩
  · intro w hw
    rw [(hr w hw).2.2.2]
    exact (hdt _).trans (h.dt w hw)
  · intro w hw i b hb
    have e := hs w hw i
    rw [hb] at e
    obtain ⟨b', hb'⟩ := Option.isSome_iff_exists.1 ((hsome w hw i).symm.trans (by rw [hb]; rfl))
    rw [hb'] at e
    simp only [Option.map_some, Option.some.injEq, Prod.mk.injEq] at e
    have := h.bodies w hw i b' hb'
    exact ⟨this.1, e.1.trans this.2.1, e.2.trans this.2.2⟩
  · intro w hw i hi ho
    rw [hsome w hw]; exact h.mine w hw i hi ho
  · intro w hw
    rw [(hr w hw).2.1]; exact proper_map p (ss w) _ (h.proper w hw)
  · intro I hI
    rw [(hr 0 hn).2.1] at hI
    obtain ⟨J, hJ, rfl⟩ := List.mem_map.1 hI
    rw [(visit_ids p (ss 0) J).1, (visit_ids p (ss 0) J).2]
    exact h.clean J hJ
  · intro w hw hw0 v hv
    obtain ⟨h1, h2, h3, h4⟩ := h.lists w hw hw0 v hv
    refine ⟨h1, h2, h3, fun i hi => ⟨(h4 i hi).1, (h4 i hi).2.1, ?_⟩⟩
    rw [hsome w hw]; exact (h4 i hi).2.2
  · intro w hw hw0 i j hi hj hl
    exact h.ghosts w hw hw0 i j hi hj ((hlist w hw i j).1 hl)
  · intro w hw hw0 i j hi hj hl
    exact h.report w hw hw0 i j hi hj ((hlist w hw i j).1 hl)
  · intro i hi ho
    rw [(hr 0 hn).2.2.1]; exact h.permMaster i hi ho
  · intro w hw hw0 i
    rw [(hr w hw).2.2.1]; exact h.permWorker w hw hw0 i

/-- One iteration keeps the agreement. -/
theorem Inv.step (h : Inv u own n c swap ρ σ x ss) (hc : Compat n p swap ρ σ) (hq : Complete p u own n x ss) (hn : 0 < n) :
    distStep p c n ss = .ok (fun w => received c (moved p c ss) w) ∧
      Inv u own n c swap ρ σ (advance p u x) (fun w => received c (moved p c ss) w) := by
  refine ⟨?_, ?_⟩
  · unfold distStep
    rw [if_pos]
    rw [List.all_eq_true]
    intro w hw
    rw [List.mem_range] at hw
    by_cases hw0 : w = 0
    · subst hw0; rfl
    · have : (w == 0) = false := by simpa using hw0
      rw [this, Bool.false_or]
      unfold exchangeOk
      rw [List.all_eq_true]
      intro v hv
      obtain ⟨g1, _, g3, g4⟩ := h.fits.lists w hw hw0 v hv
      rw [Bool.and_eq_true, Bool.and_eq_true, List.all_eq_true, List.all_eq_true]
      refine ⟨⟨fun i hi => ?_, fun i hi => ?_⟩, by simp [g3]⟩
      · obtain ⟨b, hb, _⟩ := moved_own h hc hq g1 (g4 i hi).1 (g4 i hi).2.1
        rw [hb]; rfl
      · rw [g3] at hi
        rw [isSome_of_shape (moved_shape (p := p) (c := c) (ss := ss) w i)]
        exact (g4 i hi).2.2
  · refine ⟨fits_next h.fits hc.dt (fun w hw i => received_shape h hc hq hw i) (fun w _ => received_rest w) hn, ?_, ?_, ?_, ?_⟩
    · intro i j
      show (pairLaw p u x j i).1 = (pairLaw p u x i j).1.map swap
      unfold pairLaw
      rw [h.sym i j, hc.even.law]
    · intro w hw i hi ho b hb
      obtain ⟨b', h1, h2, h3⟩ := moved_own h hc hq hw hi ho
      have e : (received c (moved p c ss) w).body i = (moved p c ss w).body i := by
        by_cases hw0 : w = 0
        · subst hw0; rfl
        · refine (received_worker h hc hq hw hw0 i).2 ?_
          rintro ⟨v, hv, hi'⟩
          obtain ⟨_, g2, _, g4⟩ := h.fits.lists w hw hw0 v hv
          exact g2 ((g4 i hi').2.1.symm.trans ho)
      rw [e, h1] at hb
      cases hb
      exact ⟨h2, h3⟩
    · intro w hw hw0 v hv i hi b hb
      rw [(received_worker h hc hq hw hw0 i).1 ⟨v, hv, hi⟩] at hb
      obtain ⟨b', _, rfl⟩ := Option.map_eq_some_iff.1 hb
      rfl
    · intro w hw i hi ho j hj hji hcare
      rw [(received_rest w).2.1]
      exact (h.term hc hq hw hi ho hj hji hcare).2

/-- The lists do not change from one iteration to the next. -/
theorem Complete.next (hq : Complete p u own n x ss) : ∀ y, Complete p u own n y ss → Complete p u own n y (fun w => received c (moved p c ss) w) := by
  intro y hy w hw i hi ho j hj hji hcare hl
  refine hy w hw i hi ho j hj hji hcare fun hl' => hl ?_
  simp only
  rw [(received_rest w).2.1]
  exact (listed_map p (ss w) _ i j).2 hl'

theorem evolve_succ (p : Phys K M R C F T) (u : Setup K F T) (q : ℕ) (x : World M R C) :
    evolve p u (q + 1) x = advance p u (evolve p u q x) := by
  induction q generalizing x with
  | zero => rfl
  | succ q ih => rw [evolve, ih]; rfl

/-- A whole run between two splits. -/
theorem Inv.run (h : Inv u own n c swap ρ σ x ss) (hc : Compat n p swap ρ σ) (q : ℕ)
    (hq : ∀ q' < q, Complete p u own n (evolve p u q' x) ss) (hn : 0 < n) :
    ∃ ss', distRun p c n q ss = .ok ss' ∧ Inv u own n c swap ρ σ (evolve p u q x) ss' ∧
      (∀ w < n, ∀ i, ((ss' w).body i).isSome = ((ss w).body i).isSome) ∧ ∀ w < n, ∀ i j, Listed (ss' w).intrs i j ↔ Listed (ss w).intrs i j := by
  induction q generalizing x ss with
  | zero => exact ⟨ss, rfl, h, fun _ _ _ => rfl, fun _ _ _ _ => Iff.rfl⟩
  | succ q ih =>
    have h0 : Complete p u own n x ss := hq 0 (Nat.succ_pos _)
    obtain ⟨h1, h2⟩ := h.step hc h0 hn
    rw [distRun, h1]
    have h3 := ih h2 fun q' hq' => h0.next _ (hq (q' + 1) (Nat.succ_lt_succ hq'))
    obtain ⟨ss', h4, h5, h6, h7⟩ := h3
    refine ⟨ss', h4, h5, fun w hw i => (h6 w hw i).trans (isSome_of_shape (received_shape h hc h0 hw i)), fun w hw i j => (h7 w hw i j).trans ?_⟩
    rw [(received_rest w).2.1]
    exact listed_map p (ss w) _ i j

end

end Verif.Dist
