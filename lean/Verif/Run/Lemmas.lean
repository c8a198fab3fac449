import Verif.Run.Locks

/-! # Case analysis of the instructions and invariants -/
namespace Verif.Run

/-- thread `t` cannot go on before `u` has released a mutex -/
def WaitsFor (s : St) (t u : Nat) : Prop :=
  (∃ m k, code (s.pc t) = .acq m k ∧ s.own m = some u) ∨ (∃ touch f, code (s.pc t) = .op true touch f ∧ s.own .boolM = some u)

/-- the shapes of an executed instruction -/
theorem step_cases {s s' : St} {t : Nat} {ch : Choice} (hs : step s t ch = .ok s') :
    (∃ m k u, ch = .go u ∧ code (s.pc t) = .acq m k ∧ (m.inRunner = true → s.g.alive = true) ∧ s.own m = none ∧
      s' = { s with own := Function.update s.own m (some t), pc := Function.update s.pc t k }) ∨
    (∃ m k u, ch = .go u ∧ code (s.pc t) = .rel m k ∧ (m.inRunner = true → s.g.alive = true) ∧
      s' = { s with own := Function.update s.own m none, pc := Function.update s.pc t k }) ∨
    (∃ lk touch f u, ch = .go u ∧ code (s.pc t) = .op lk touch f ∧ (touch = true → s.g.alive = true) ∧ (lk = true → s.own .boolM = none) ∧
      (((f s.g).2.2 = none ∧ s' = { s with g := (f s.g).1, pc := Function.update s.pc t (f s.g).2.1 }) ∨
       (∃ p, (f s.g).2.2 = some p ∧ s.pc u = .unborn ∧ u ≠ t ∧
         s' = { s with g := (f s.g).1, pc := Function.update (Function.update s.pc t (f s.g).2.1) u p }))) ∨
    (∃ k c, ch = .call c ∧ code (s.pc t) = .pick k ∧ s.g.alive = true ∧ s' = { s with pc := Function.update s.pc t (k c) }) ∨
    (∃ f k sub threw, ch = .finish threw ∧ code (s.pc t) = .action f k sub ∧
      s' = { s with g := f threw s.g, pc := Function.update s.pc t (k threw) }) ∨
    (∃ f k' k c, ch = .call c ∧ code (s.pc t) = .action f k' (some k) ∧ s' = { s with pc := Function.update s.pc t (k c) }) := by
  unfold step at hs
  split at hs
  next m k u hc =>
    split_ifs at hs with h1 h2
    refine Or.inl ⟨m, k, u, rfl, hc, fun h => ?_, h2, (Out.ok.inj hs).symm⟩
    by_contra hh
    exact h1 ⟨h, by simpa using hh⟩
  next m k u hc =>
    split_ifs at hs with h1
    refine Or.inr (Or.inl ⟨m, k, u, rfl, hc, fun h => ?_, (Out.ok.inj hs).symm⟩)
    by_contra hh
    exact h1 ⟨h, by simpa using hh⟩
  next lk touch f u hc =>
    by_cases h1 : touch = true ∧ s.g.alive = false
    · rw [if_pos h1] at hs
      cases hs
    rw [if_neg h1] at hs
    by_cases h2 : lk = true ∧ s.own .boolM ≠ none
    · rw [if_pos h2] at hs
      cases hs
    rw [if_neg h2] at hs
    refine Or.inr (Or.inr (Or.inl ⟨lk, touch, f, u, rfl, hc, fun h => ?_, fun h => ?_, ?_⟩))
    · by_contra hh
      exact h1 ⟨h, by simpa using hh⟩
    · by_contra hh
      exact h2 ⟨h, hh⟩
    split at hs
    next hq => exact Or.inl ⟨hq, (Out.ok.inj hs).symm⟩
    next q hq =>
      split_ifs at hs with h3
      refine Or.inr ⟨q, hq, h3, ?_, (Out.ok.inj hs).symm⟩
      intro hut
      rw [hut] at h3
      rw [h3] at hc
      cases hc
  next k c hc =>
    split_ifs at hs with h1
    exact Or.inr (Or.inr (Or.inr (Or.inl ⟨k, c, rfl, hc, h1, (Out.ok.inj hs).symm⟩)))
  next f k sub threw hc =>
    exact Or.inr (Or.inr (Or.inr (Or.inr (Or.inl ⟨f, k, sub, threw, rfl, hc, (Out.ok.inj hs).symm⟩))))
  next f k' k c hc =>
    exact Or.inr (Or.inr (Or.inr (Or.inr (Or.inr ⟨f, k', k, c, rfl, hc, (Out.ok.inj hs).symm⟩))))
  next => cases hs
  next => cases hs

/-- thread `u ≠ t` is moved by an instruction of `t` only by being started -/
theorem step_other {s s' : St} {t u : Nat} {ch : Choice} (hs : step s t ch = .ok s') (hu : u ≠ t) (hb : s.pc u ≠ .unborn) :
    s'.pc u = s.pc u := by
  rcases step_cases hs with ⟨m, k, v, _, _, _, _, rfl⟩ | ⟨m, k, v, _, _, _, rfl⟩ | ⟨lk, touch, f, v, _, _, _, _, ⟨_, rfl⟩ | ⟨p, _, hv, _, rfl⟩⟩ |
    ⟨k, c, _, _, _, rfl⟩ | ⟨f, k, sub, threw, _, _, rfl⟩ | ⟨f, k', k, c, _, _, rfl⟩
  case inr.inr.inl.inr =>
    have huv : u ≠ v := fun h => hb (h ▸ hv)
    simp only [Function.update_of_ne huv, Function.update_of_ne hu]
  all_goals simp only [Function.update_of_ne hu]

/-- a mutex held by a thread is released by that thread only -/
theorem step_own {s s' : St} {t u : Nat} {m : Mx} {ch : Choice} (hl : Locked s) (hs : step s t ch = .ok s') (hu : u ≠ t)
    (ho : s.own m = some u) : s'.own m = some u := by
  rcases step_cases hs with ⟨m', k, v, _, _, _, hn, rfl⟩ | ⟨m', k, v, _, hc, _, rfl⟩ | ⟨lk, touch, f, v, _, _, _, _, ⟨_, rfl⟩ | ⟨p, _, hv, _, rfl⟩⟩ |
    ⟨k, c, _, _, _, rfl⟩ | ⟨f, k, sub, threw, _, _, rfl⟩ | ⟨f, k', k, c, _, _, rfl⟩
  case inl =>
    have : m ≠ m' := fun h => by rw [← h, ho] at hn; cases hn
    simp only [Function.update_of_ne this, ho]
  case inr.inl =>
    have hf := fits (s.pc t) (hl.never t)
    rw [hc] at hf
    have hmt := (hl.own m' t).2 hf.1
    have : m ≠ m' := fun h => by
      rw [← h, ho] at hmt
      exact hu (Option.some.inj hmt)
    simp only [Function.update_of_ne this, ho]
  all_goals exact ho

/-- a thread that waits for a mutex does not move -/
theorem waits_blocked {s s' : St} {t u : Nat} {ch : Choice} (h : WaitsFor s t u) : step s t ch ≠ .ok s' := by
  intro hs
  rcases h with ⟨m, k, hc, ho⟩ | ⟨touch, f, hc, ho⟩
  · rcases step_cases hs with ⟨m', k', v, _, hc', _, hn, _⟩ | ⟨m', k', v, _, hc', _⟩ | ⟨lk, touch, f, v, _, hc', _⟩ |
      ⟨k', c, _, hc', _⟩ | ⟨f, k', sub, threw, _, hc', _⟩ | ⟨f, k', k'', c, _, hc', _⟩
    all_goals rw [hc] at hc'
    all_goals try cases hc'
    rw [ho] at hn
    cases hn
  · rcases step_cases hs with ⟨m', k', v, _, hc', _, hn, _⟩ | ⟨m', k', v, _, hc', _⟩ | ⟨lk, touch, f, v, _, hc', _, hn, _⟩ |
      ⟨k', c, _, hc', _⟩ | ⟨f, k', sub, threw, _, hc', _⟩ | ⟨f, k', k'', c, _, hc', _⟩
    all_goals rw [hc] at hc'
    all_goals try cases hc'
    have := hn rfl
    rw [ho] at this
    cases this

theorem waits_born {s : St} {t u : Nat} (h : WaitsFor s t u) : s.pc t ≠ .unborn := by
  intro hb
  rcases h with ⟨m, k, hc, _⟩ | ⟨touch, f, hc, _⟩ <;> rw [hb] at hc <;> cases hc

/-- two threads that wait for each other (or one that waits for itself) do so for ever -/
theorem cycle_forever {P : St → Nat → Choice → Prop} {s s' : St} {t u : Nat} (hl : Locked s) (h1 : WaitsFor s t u) (h2 : WaitsFor s u t)
    (hr : Reach P s s') : WaitsFor s' t u ∧ WaitsFor s' u t ∧ Locked s' := by
  induction hr with
  | start => exact ⟨h1, h2, hl⟩
  | @next s1 s2 v ch _ _ hs ih =>
    obtain ⟨a, b, hl1⟩ := ih
    have hvt : t ≠ v := fun h => waits_blocked a (h ▸ hs)
    have hvu : u ≠ v := fun h => waits_blocked b (h ▸ hs)
    have pt := step_other hs hvt (waits_born a)
    have pu := step_other hs hvu (waits_born b)
    refine ⟨?_, ?_, locked_step hl1 hs⟩
    · rcases a with ⟨m, k, hc, ho⟩ | ⟨touch, f, hc, ho⟩
      · exact Or.inl ⟨m, k, pt ▸ hc, step_own hl1 hs hvu ho⟩
      · exact Or.inr ⟨touch, f, pt ▸ hc, step_own hl1 hs hvu ho⟩
    · rcases b with ⟨m, k, hc, ho⟩ | ⟨touch, f, hc, ho⟩
      · exact Or.inl ⟨m, k, pu ▸ hc, step_own hl1 hs hvt ho⟩
      · exact Or.inr ⟨touch, f, pu ▸ hc, step_own hl1 hs hvt ho⟩

end Verif.Run
