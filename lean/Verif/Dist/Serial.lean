import Verif.Dist.Start

/-! An ordinary run as a run of one process. -/

namespace Verif.Dist

section
variable {K M R C F T : Type} [AddCommMonoid F]

/-- No neighbours. -/
def alone : Comm := ⟨fun _ => [], fun _ _ => [], fun _ _ => []⟩

theorem alone_step (p : Phys K M R C F T) (ss : ℕ → Scene K M R C F T) : received alone (moved p alone ss) 0 = serialStep p (ss 0) := rfl

theorem alone_run (p : Phys K M R C F T) (q : ℕ) (ss ss' : ℕ → Scene K M R C F T) (h : distRun p alone 1 q ss = .ok ss') :
    ss' 0 = serialRun p q (ss 0) := by
  induction q generalizing ss with
  | zero => cases h; rfl
  | succ q ih =>
    have e : distStep p alone 1 ss = .ok fun w => received alone (moved p alone ss) w := rfl
    rw [distRun, e] at h
    rw [ih _ h, serialRun, alone_step]

variable {p : Phys K M R C F T} {swap : C → C} {u : Setup K F T} {x : World M R C} {s : Scene K M R C F T}

theorem alone_inv (h : Shows swap u (fun _ => 0) x s) (hx : TwoSided swap x) :
    Inv u (fun _ => 0) 1 alone swap Eq Eq x (fun _ => s) := by
  refine ⟨⟨fun _ _ => Nat.one_pos, ?_, fun _ _ => h.motion.dt, ?_, ?_, fun _ _ => h.motion.proper, fun _ _ => Iff.rfl, ?_, ?_, ?_,
    ⟨List.nodup_nil, ?_⟩, fun i hi _ => h.perm i hi, ?_, ?_⟩, hx, ?_, ?_, ?_⟩
  · intro w hw
    rw [Nat.lt_one_iff.1 hw]; exact h.motion.rank
  · intro w _ i b hb
    have := shows_body h.motion hb
    exact ⟨this.1, this.2.1, this.2.2.1⟩
  · intro w _ i hi _
    exact (shows_isSome h.motion i).2 hi
  · intro w hw hw0
    exact (hw0 (Nat.lt_one_iff.1 hw)).elim
  · intro w hw hw0
    exact (hw0 (Nat.lt_one_iff.1 hw)).elim
  · intro w hw hw0
    exact (hw0 (Nat.lt_one_iff.1 hw)).elim
  · intro w hw
    cases hw
  · intro w hw hw0
    exact (hw0 (Nat.lt_one_iff.1 hw)).elim
  · intro i _ hi
    exact (hi rfl).elim
  · intro w _ i hi _ b hb
    rw [h.bodies i hi] at hb
    cases hb
    exact ⟨rfl, rfl⟩
  · intro w hw hw0
    exact (hw0 (Nat.lt_one_iff.1 hw)).elim
  · intro w _ i hi _ j hj hji _
    exact (sameContact_iff h.motion.proper i j).1 (h.contacts i hi j hj hji)

theorem serial_shows (h : Shows swap u (fun _ => 0) x s) (hx : TwoSided swap x) (h1 : EvenHanded p swap)
    (h3 : ConstantDt p) (q : ℕ) (hq : ∀ q' < q, SerialComplete p u (evolve p u q' x) s) :
    Shows swap u (fun _ => 0) (evolve p u q x) (serialRun p q s) := by
  obtain ⟨ss', h4, h5, h6, _⟩ := (alone_inv h hx).run (compat_serial h1 h3) q
    (fun q' hq' w _ i hi _ j hj hji _ => hq q' hq' i hi j hj hji) Nat.one_pos
  have e := alone_run p q _ ss' h4
  have hb : ∀ i ∈ u.ids, (serialRun p q s).body i = some ⟨0, u.k i, (evolve p u q x).m i, (evolve p u q x).r i⟩ := by
    intro i hi
    obtain ⟨b, h7, h8, h9, h10, h11⟩ := h5.own_body Nat.one_pos hi rfl
    rw [e] at h7
    rw [h7]
    cases b
    simp only at *
    rw [h8, h9, h10, h11]
  have hpr := h5.fits.proper 0 Nat.one_pos
  rw [e] at hpr
  refine ⟨⟨?_, ?_, fun i hi => ⟨_, hb i hi⟩, ?_, ?_, hpr⟩, hb, ?_, ?_⟩
  · rw [← e]; exact h5.fits.rank 0 Nat.one_pos
  · rw [← e]; exact h5.fits.dt 0 Nat.one_pos
  · intro i hi
    rw [← e]
    have := h6 0 Nat.one_pos i
    rw [h.motion.others i hi] at this
    exact Option.isNone_iff_eq_none.1 (by simpa using this)
  · intro i hi _
    rw [← e]; exact h5.fits.permMaster i hi rfl
  · intro i hi
    rw [← e]; exact h5.fits.permMaster i hi rfl
  · intro i hi j hj hji
    rw [sameContact_iff hpr, ← e]
    exact h5.con 0 Nat.one_pos i hi rfl j hj hji (.inr rfl)

end

end Verif.Dist
