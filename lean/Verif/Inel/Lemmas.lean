import Verif.Inel.Model

/-!
# What each part of the law of inelastic cohesive contacts changes
-/
namespace Verif.Inel
open Verif Verif.Mech

theorem ok_bind {α β : Type} (a : α) (f : α → Res β) : (Res.ok a >>= f) = f a := rfl

theorem bind_ok_inv {α β : Type} {r : Res α} {f : α → Res β} {b : β} (h : r.bind f = .ok b) :
    ∃ a, r = .ok a ∧ f a = .ok b := by
  cases r with
  | ok a => exact ⟨a, rfl, h⟩
  | throws => cases h
  | ub => cases h

theorem go_ok {P : Par} {s : St} {i : In} {o : Out} (h : go P s i = .ok o) :
    (∃ (k : Bool) (t : St), normal P (if i.fresh then { s with Fs := 0 } else s) i.g.pd = .ok (.fail k t) ∧
      o = ⟨k, t, Loads.zero⟩) ∨
    (∃ (F : ℝ) (t u v : St), normal P (if i.fresh then { s with Fs := 0 } else s) i.g.pd = .ok (.force F t) ∧
      twist P (shear P t i.g F) i.g i.tw i.fresh = .ok u ∧ bending P u i.g i.w i.dt = .ok v ∧
      o = ⟨true, { v with Fn := (-F) • i.g.normal }, loadsOf i ((-F) • i.g.normal + v.Fs) (v.mB + v.mTw)⟩) := by
  unfold go at h
  obtain ⟨n, hn, h⟩ := bind_ok_inv h
  cases n with
  | fail k t =>
    cases h
    exact Or.inl ⟨k, t, hn, rfl⟩
  | force F t =>
    obtain ⟨u, hu, h⟩ := bind_ok_inv h
    obtain ⟨v, hv, h⟩ := bind_ok_inv h
    cases h
    exact Or.inr ⟨F, t, u, v, hn, hu, hv, rfl⟩

theorem tension_fail {P : Par} {s t : St} {pd un : ℝ} {k : Bool} (h : tension P s pd un = .ok (.fail k t)) :
    t = s.failed ∧ k = false ∧ (-un > P.maxExten ∨ s.isBroken = true) := by
  unfold tension at h
  by_cases h1 : -un > P.maxExten ∨ s.isBroken = true
  · rw [if_pos h1] at h
    cases h
    exact ⟨rfl, rfl, h1⟩
  · rw [if_neg h1] at h
    by_cases h2 : -(P.knT * un) > s.maxElT ∨ s.onT = true
    · rw [if_pos h2] at h
      obtain ⟨x, _, hx⟩ := bind_ok_inv h
      cases hx
    · rw [if_neg h2] at h
      cases h

theorem compression_fail {P : Par} {s t : St} {pd un : ℝ} {k : Bool} (h : compression P s pd un = .ok (.fail k t)) :
    t = s.failed ∧ k = decide (¬ pd ≤ 0) ∧ (un > P.maxContract ∨ s.isBroken = true) := by
  unfold compression at h
  by_cases h1 : un > P.maxContract ∨ s.isBroken = true
  · rw [if_pos h1] at h
    cases h
    exact ⟨rfl, rfl, h1⟩
  · rw [if_neg h1] at h
    by_cases h2 : P.knC * un > s.maxElC ∨ s.onC = true
    · rw [if_pos h2] at h
      obtain ⟨x, _, hx⟩ := bind_ok_inv h
      cases hx
    · rw [if_neg h2] at h
      cases h

/-- `t` differs from `s` in what the part along the normal keeps only. -/
structure NFrame (s t : St) : Prop where
  eq : t = { s with onT := t.onT, onC := t.onC, unp := t.unp, maxElT := t.maxElT, maxElC := t.maxElC, cT := t.cT, cC := t.cC }

theorem tension_force {P : Par} {s t : St} {pd un F : ℝ} (h : tension P s pd un = .ok (.force F t)) :
    NFrame s t ∧ s.isBroken = false ∧ ¬ (-un > P.maxExten) := by
  unfold tension at h
  by_cases h1 : -un > P.maxExten ∨ s.isBroken = true
  · rw [if_pos h1] at h
    cases h
  · rw [if_neg h1] at h
    have hb : s.isBroken = false ∧ ¬ (-un > P.maxExten) :=
      ⟨by simpa using fun h => h1 (Or.inr h), fun h => h1 (Or.inl h)⟩
    refine ⟨?_, hb⟩
    by_cases h2 : -(P.knT * un) > s.maxElT ∨ s.onT = true
    · rw [if_pos h2] at h
      obtain ⟨x, hx, h⟩ := bind_ok_inv h
      have hf : NFrame s x.2 := by
        dsimp only at hx
        split_ifs at hx <;> (try cases hx) <;> exact ⟨rfl⟩
      cases h
      constructor
      have := hf.eq
      split_ifs
      · rw [this]
      · exact this
    · rw [if_neg h2] at h
      cases h
      exact ⟨rfl⟩

theorem compression_force {P : Par} {s t : St} {pd un F : ℝ} (h : compression P s pd un = .ok (.force F t)) :
    NFrame s t ∧ s.isBroken = false ∧ ¬ (un > P.maxContract) := by
  unfold compression at h
  by_cases h1 : un > P.maxContract ∨ s.isBroken = true
  · rw [if_pos h1] at h
    cases h
  · rw [if_neg h1] at h
    have hb : s.isBroken = false ∧ ¬ (un > P.maxContract) :=
      ⟨by simpa using fun h => h1 (Or.inr h), fun h => h1 (Or.inl h)⟩
    refine ⟨?_, hb⟩
    by_cases h2 : P.knC * un > s.maxElC ∨ s.onC = true
    · rw [if_pos h2] at h
      obtain ⟨x, hx, h⟩ := bind_ok_inv h
      have hf : NFrame s x.2 := by
        dsimp only at hx
        split_ifs at hx <;> (try cases hx) <;> exact ⟨rfl⟩
      cases h
      constructor
      have := hf.eq
      split_ifs
      · rw [this]
      · exact this
    · rw [if_neg h2] at h
      cases h
      exact ⟨rfl⟩

theorem normal_fail {P : Par} {s t : St} {pd : ℝ} {k : Bool} (h : normal P s pd = .ok (.fail k t)) :
    t = s.failed ∧ (k = true → 0 < pd) := by
  unfold normal at h
  by_cases hu : pd - s.unp ≤ 0
  · rw [if_pos hu] at h
    obtain ⟨a, b, _⟩ := tension_fail h
    exact ⟨a, fun hk => by rw [b] at hk; cases hk⟩
  · rw [if_neg hu] at h
    obtain ⟨a, b, _⟩ := compression_fail h
    exact ⟨a, fun hk => by rw [b] at hk; simpa using hk⟩

theorem normal_force {P : Par} {s t : St} {pd F : ℝ} (h : normal P s pd = .ok (.force F t)) :
    NFrame s t ∧ s.isBroken = false := by
  unfold normal at h
  by_cases hu : pd - s.unp ≤ 0
  · rw [if_pos hu] at h
    exact ⟨(tension_force h).1, (tension_force h).2.1⟩
  · rw [if_neg hu] at h
    exact ⟨(compression_force h).1, (compression_force h).2.1⟩

/-- Shear changes the shear force, the adhesion and whether cohesion is broken. -/
theorem shear_frame (P : Par) (s : St) (g : ScGeom) (F : ℝ) :
    shear P s g F = { s with cohBroken := (shear P s g F).cohBroken, adh := (shear P s g F).adh, Fs := (shear P s g F).Fs } := by
  unfold shear
  dsimp only
  split_ifs <;> rfl

theorem twist_frame {P : Par} {s u : St} {g : ScGeom} {tw : ℝ} {fresh : Bool} (h : twist P s g tw fresh = .ok u) :
    u = { s with cohBroken := u.cohBroken, mTw := u.mTw, maxElTw := u.maxElTw, twp := u.twp, cTw := u.cTw, onTw := u.onTw } ∧
    (s.cohBroken = true → u.cohBroken = true ∧ u.mTw = 0) := by
  unfold twist at h
  by_cases h0 : s.cohBroken = false
  · rw [if_pos h0] at h
    dsimp only at h
    refine ⟨?_, fun hh => by rw [h0] at hh; cases hh⟩
    by_cases h1 : |tw - s.twp| > P.maxTwist
    · rw [if_pos h1] at h
      cases h
      rfl
    · rw [if_neg h1] at h
      by_cases h2 : |(tw - s.twp) * P.ktw| > s.maxElTw ∨ s.onTw = true
      · rw [if_pos h2] at h
        obtain ⟨x, hx, h⟩ := bind_ok_inv h
        have hf : x.2 = { s with cTw := x.2.cTw, onTw := x.2.onTw } := by
          split_ifs at hx <;> (try cases hx) <;> rfl
        cases h
        split_ifs <;> rw [hf]
      · rw [if_neg h2] at h
        cases h
        rfl
  · rw [if_neg h0] at h
    cases h
    exact ⟨rfl, fun hh => ⟨hh, rfl⟩⟩

theorem bending_frame {P : Par} {s u : St} {g : ScGeom} {w : V3} {dt : ℝ} (h : bending P s g w dt = .ok u) :
    u = { s with cohBroken := u.cohBroken, mB := u.mB, creep := u.creep, cB := u.cB, kDam := u.kDam, onB := u.onB } ∧
    (s.cohBroken = true → u = s) := by
  unfold bending at h
  by_cases h0 : s.cohBroken = false
  · rw [if_pos h0] at h
    dsimp only at h
    refine ⟨?_, fun hh => by rw [h0] at hh; cases hh⟩
    split_ifs at h <;> cases h <;> rfl
  · rw [if_neg h0] at h
    cases h
    exact ⟨rfl, fun _ => rfl⟩

end Verif.Inel
