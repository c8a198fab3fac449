import Verif.Step.Lemmas
/-! # Helper lemmas: calls that may raise, counting steps -/
namespace Verif.Step
open Verif

variable {E W T : Type}

theorem turns_of_ok [Add T] (B : Beh E W T) (es : List E) : ∀ s s' : Sc E W T, 0 ≤ s.subStep →
    turns B s es = .ok s' → Did B s s' (es.map .eng) ∧ s'.subStep = s.subStep := by
  induction es with
  | nil => intro s s' _ h; cases h; exact ⟨Did.refl B s, rfl⟩
  | cons e es ih =>
    intro s s' hs h
    rcases turn_cases B s e hs with ⟨s1, h1, _, d1, e1⟩ | ⟨s1, h1, _⟩
    · simp only [turns, h1] at h
      obtain ⟨d2, e2⟩ := ih s1 s' (by omega) h
      exact ⟨by simpa using d1.trans d2, by omega⟩
    · simp only [turns, h1] at h; cases h

/-- a loop over the engines that ends by exception has completed the engines before the failing one -/
theorem turns_of_raised [Add T] (B : Beh E W T) (es : List E) : ∀ s s' : Sc E W T, 0 ≤ s.subStep →
    turns B s es = .raised s' → ∃ pre e post, es = pre ++ e :: post ∧ s'.log = s.log ++ pre.map .eng ∧
      s'.engines = s.engines ∧ s'.subStep = s.subStep ∧ s'.iter = s.iter ∧ s'.time = s.time := by
  induction es with
  | nil => intro s s' _ h; cases h
  | cons e es ih =>
    intro s s' hs h
    rcases turn_cases B s e hs with ⟨s1, h1, _, d1, e1⟩ | ⟨s1, h1, _, a, b, c, d, f, _⟩
    · simp only [turns, h1] at h
      obtain ⟨pre, e', post, p1, p2, p3, p4, p5, p6⟩ := ih s1 s' (by omega) h
      have hv := d1.view
      simp only [view, evG, List.foldl_cons, List.foldl_nil, G.mk.injEq] at hv
      refine ⟨e :: pre, e', post, by rw [p1]; rfl, ?_, p3.trans d1.engines, by omega, by omega, ?_⟩
      · rw [p2, d1.log]; simp
      · rw [p6, hv.2.2.1]
    · simp only [turns, h1] at h
      cases h
      exact ⟨[], e, es, rfl, by simp [a], b, c, d, f⟩

theorem micros_of_ok [Add T] (B : Beh E W T) : ∀ (k : Nat) (s s' : Sc E W T) (r : Nat),
    r + k ≤ s.engines.length + 2 → (k ≤ 1 ∧ r = 0 ∨ 0 ≤ s.subStep) → micros B s ((r : Int) - 1) k = .ok s' →
    Did B s s' (((stepEvs s.engines).drop r).take k) ∧
      s'.subStep = if k ≠ 0 ∧ r + k = s.engines.length + 2 then -2 else s.subStep := by
  intro k
  induction k with
  | zero => intro s s' r _ _ h; cases h; exact ⟨by simpa using Did.refl B s, by simp⟩
  | succ k ih =>
    intro s s' r h1 h2 h
    rcases micro_cases B s r (by omega) (by omega) with ⟨s1, ev, hm, hg, d1, e1⟩ | ⟨s1, e, hm, _⟩
    · rw [drop_take_succ _ _ _ _ hg]
      simp only [micros, hm] at h
      by_cases hk : k = 0
      · subst hk
        cases h
        refine ⟨by simpa using d1, ?_⟩
        rw [e1]
        split <;> split <;> first | rfl | omega
      · have hs1 : 0 ≤ s1.subStep := by rw [e1, if_neg (by omega)]; omega
        have e3 : ((r + 1 : Nat) : Int) - 1 = (r : Int) - 1 + 1 := by omega
        rw [← e3] at h
        obtain ⟨d2, e2⟩ := ih s1 s' (r+1) (by rw [d1.engines]; omega) (Or.inr hs1) h
        rw [d1.engines] at d2 e2
        refine ⟨d1.trans d2, ?_⟩
        rw [e2, e1]
        (repeat' split) <;> omega
    · simp only [micros, hm] at h; cases h

/-- a sub-step either performs the event at its position and moves on, or raises and stays -/
theorem move_sub_cases [Add T] (B : Beh E W T) (s : Sc E W T) (r : Nat) (h : At s r) (hn : s.next = [])
    (hs : s.subStepping = true) :
    (∃ s', move B s = .ok s' ∧ Did B s s' (chunk s.engines r true) ∧
      s'.subStep = if r ≤ s.engines.length then (r : Int) else -1) ∨
    (∃ s' e, move B s = .raised s' ∧ (stepEvs s.engines)[r]? = some (.eng e) ∧ s'.log = s.log ∧
      s'.engines = s.engines ∧ s'.subStep = s.subStep ∧ s'.iter = s.iter ∧ s'.time = s.time ∧
      s'.w = (B.act e s.w).w ∧ s'.next = (B.act e s.w).assign.getD s.next) := by
  have hm : move B s = partStep B s := by simp [move, adopt_nil hn, hs]
  rw [hm, partStep_eq B s r h, hs, if_pos rfl]
  have h1 := h.1; have h2 := h.2
  rcases micro_cases B s r (by omega) (by omega) with ⟨s1, ev, hm, hg, d1, e1⟩ | ⟨s1, e, hm, hg, _, a, b, c, d, f, g⟩
  · left
    refine ⟨{ s1 with subStep := s1.subStep + 1 }, by simp only [micros, hm, finish], ?_, ?_⟩
    · have : chunk s.engines r true = [ev] := by
        simp only [chunk, if_true]
        rw [drop_take_succ _ _ _ _ hg]; simp
      rw [this]
      exact ⟨d1.view, d1.log, d1.engines⟩
    · simp only [e1]; (repeat' split) <;> omega
  · right
    exact ⟨s1, e, by simp only [micros, hm, finish], hg, a, b, c, d, f, g⟩

/-! ### Counting -/

theorem foldl_iter [Add T] (B : Beh E W T) [DecidableEq E] (evs : List (Ev E)) : ∀ g : G E W T,
    (evs.foldl (evG B) g).iter = g.iter + evs.count .epi := by
  induction evs with
  | nil => intro g; simp
  | cons e es ih =>
    intro g
    rw [List.foldl_cons, ih, List.count_cons]
    cases e <;> simp [evG]; omega

theorem count_epi_map [DecidableEq E] (es : List E) : (es.map Ev.eng).count .epi = 0 := by
  rw [List.count_eq_zero]; simp

theorem count_epi_drop [DecidableEq E] (es : List E) (r : Nat) (h : r ≤ es.length + 1) :
    ((stepEvs es).drop r).count .epi = 1 := by
  cases r with
  | zero => simp [stepEvs, count_epi_map]
  | succ r =>
    rw [stepEvs, List.drop_succ_cons, List.drop_append_of_le_length (by simpa using h), List.count_append,
      ← List.map_drop, count_epi_map]
    simp

theorem adopt_cases (s : Sc E W T) : adopt s = s ∨
    (adopt s = { s with engines := s.next, next := [], subStep := -1 } ∧ s.next ≠ []) := by
  unfold adopt
  split
  · rename_i h; right; refine ⟨rfl, ?_⟩; intro h'; simp [h'] at h
  · left; rfl

theorem adopt_same (s : Sc E W T) : (adopt s).log = s.log ∧ (adopt s).iter = s.iter ∧ (adopt s).time = s.time ∧
    (adopt s).w = s.w ∧ (adopt s).subStepping = s.subStepping := by
  rcases adopt_cases s with h | ⟨h, _⟩ <;> rw [h] <;> simp

theorem at_adopt {s : Sc E W T} {r : Nat} (h : At s r) : ∃ r', At (adopt s) r' := by
  rcases adopt_cases s with h' | ⟨h', _⟩
  · exact ⟨r, h'.symm ▸ h⟩
  · exact ⟨0, by rw [h']; constructor <;> simp⟩

/-- one round of the continuous run advances the iteration by one and ends between steps -/
theorem move_whole [Add T] (B : Beh E W T) (hB : NoRaise B) (s : Sc E W T) (r : Nat) (h : At s r)
    (hs : s.subStepping = false) :
    ∃ s', move B s = .ok s' ∧ s'.iter = s.iter + 1 ∧ At s' 0 := by
  classical
  obtain ⟨r', h'⟩ := at_adopt h
  obtain ⟨s', a, b, c⟩ := move_ok B hB s r' h'
  have hs' : (adopt s).subStepping = false := (adopt_same s).2.2.2.2.trans hs
  refine ⟨s', a, ?_, ?_⟩
  · have := congrArg G.iter b.view
    rw [foldl_iter] at this
    have e : (view s').iter = s'.iter := rfl
    rw [e] at this
    rw [this, hs']
    simp only [chunk, Bool.false_eq_true, if_false]
    rw [count_epi_drop _ _ h'.2]
    simp [view, (adopt_same s).2.1]
  · simp only [hs', Bool.false_eq_true, false_and, if_false] at c
    constructor
    · simpa using c
    · omega

theorem foldl_time_noepi [Add T] (B : Beh E W T) (evs : List (Ev E)) (h : Ev.epi ∉ evs) : ∀ g : G E W T,
    (evs.foldl (evG B) g).time = g.time := by
  induction evs with
  | nil => intro g; rfl
  | cons e es ih =>
    intro g
    simp only [List.mem_cons, not_or] at h
    rw [List.foldl_cons, ih h.2]
    cases e with
    | epi => exact absurd rfl h.1
    | _ => rfl

theorem drop_stepEvs (es : List E) (r : Nat) (h : r ≤ es.length + 1) :
    ∃ xs, (stepEvs es).drop r = xs ++ [.epi] ∧ Ev.epi ∉ xs := by
  cases r with
  | zero => exact ⟨.pro :: es.map .eng, by simp [stepEvs], by simp⟩
  | succ r =>
    refine ⟨(es.map .eng).drop r, ?_, ?_⟩
    · rw [stepEvs, List.drop_succ_cons, List.drop_append_of_le_length (by simpa using h)]
    · intro hm; have := List.mem_of_mem_drop hm; simp at this

/-- one round of the continuous run advances the time by the `dt` in force at the end of the step -/
theorem move_whole_time [Add T] (B : Beh E W T) (hB : NoRaise B) (s s' : Sc E W T) (r : Nat) (h : At s r)
    (hs : s.subStepping = false) (hm : move B s = .ok s') : s'.time = s.time + B.dt s'.w := by
  obtain ⟨r', h'⟩ := at_adopt h
  obtain ⟨s1, a, b, c⟩ := move_ok B hB s r' h'
  rw [a] at hm; cases hm
  have hs' : (adopt s).subStepping = false := (adopt_same s).2.2.2.2.trans hs
  rw [hs'] at b
  obtain ⟨xs, hx, hx'⟩ := drop_stepEvs (adopt s).engines r' h'.2
  have hv := b.view
  simp only [chunk, Bool.false_eq_true, if_false, hx, List.foldl_append, List.foldl_cons, List.foldl_nil] at hv
  have h1 : s'.time = (evG B (xs.foldl (evG B) (view (adopt s))) .epi).time := congrArg G.time hv
  have h2 : s'.w = (evG B (xs.foldl (evG B) (view (adopt s))) .epi).w := congrArg G.w hv
  rw [h1, h2]
  simp only [evG]
  rw [foldl_time_noepi B xs hx']
  simp [view, (adopt_same s).2.2.1]

end Verif.Step
