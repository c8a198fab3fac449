import Verif.Step.Model
/-! # Helper lemmas for the time step -/
namespace Verif.Step
open Verif

variable {E W T : Type}

/-- the events of one step with engine list `es` -/
def stepEvs (es : List E) : List (Ev E) := .pro :: (es.map .eng ++ [.epi])

theorem stepEvs_length (es : List E) : (stepEvs es).length = es.length + 2 := by simp [stepEvs]

/-- the data that events transform -/
structure G (E W T : Type) where
  w : W
  iter : Nat
  time : T
  next : List E

def view (s : Sc E W T) : G E W T := ⟨s.w, s.iter, s.time, s.next⟩

/-- effect of one (completed) event inside a step -/
def evG [Add T] (B : Beh E W T) (g : G E W T) : Ev E → G E W T
  | .pro => { g with w := B.pro g.w }
  | .eng e => { g with w := (B.act e g.w).w, next := (B.act e g.w).assign.getD g.next }
  | .epi => { g with iter := g.iter + 1, time := g.time + B.dt g.w }

/-- no engine raises -/
def NoRaise (B : Beh E W T) : Prop := ∀ e w, (B.act e w).raises = false

/-- no engine assigns `O.engines` -/
def NoAssign (B : Beh E W T) : Prop := ∀ e w, (B.act e w).assign = none

/-- result of a call that completed the events `evs` -/
structure Did [Add T] (B : Beh E W T) (s s' : Sc E W T) (evs : List (Ev E)) : Prop where
  view : view s' = evs.foldl (evG B) (view s)
  log : s'.log = s.log ++ evs
  engines : s'.engines = s.engines

theorem Did.trans [Add T] {B : Beh E W T} {s s' s'' : Sc E W T} {a b} (h : Did B s s' a) (h' : Did B s' s'' b) :
    Did B s s'' (a ++ b) :=
  ⟨by rw [h'.view, h.view, List.foldl_append], by rw [h'.log, h.log, List.append_assoc], h'.engines.trans h.engines⟩

theorem Did.refl [Add T] (B : Beh E W T) (s : Sc E W T) : Did B s s [] := ⟨rfl, by simp, rfl⟩

theorem subOpt_fields (s : Sc E W T) (o : Option Bool) :
    (subOpt s o).engines = s.engines ∧ (subOpt s o).next = s.next ∧ (subOpt s o).subStep = s.subStep ∧
    (subOpt s o).iter = s.iter ∧ (subOpt s o).time = s.time ∧ (subOpt s o).w = s.w ∧ (subOpt s o).log = s.log := by
  cases o <;> simp [subOpt, setSub]

theorem assignOpt_fields (s : Sc E W T) (o : Option (List E)) (h : 0 ≤ s.subStep) :
    (assignOpt s o).engines = s.engines ∧ (assignOpt s o).next = o.getD s.next ∧
    (assignOpt s o).subStep = s.subStep ∧ (assignOpt s o).subStepping = s.subStepping ∧
    (assignOpt s o).iter = s.iter ∧ (assignOpt s o).time = s.time ∧ (assignOpt s o).w = s.w ∧
    (assignOpt s o).log = s.log := by
  cases o with
  | none => simp [assignOpt]
  | some l => have : ¬ s.subStep < 0 := by omega
              simp [assignOpt, enginesSet, this]

/-- a turn, in a state inside a step -/
theorem turn_cases [Add T] (B : Beh E W T) (s : Sc E W T) (e : E) (h : 0 ≤ s.subStep) :
    (∃ s', turn B s e = .ok s' ∧ (B.act e s.w).raises = false ∧ Did B s s' [.eng e] ∧ s'.subStep = s.subStep) ∨
    (∃ s', turn B s e = .raised s' ∧ (B.act e s.w).raises = true ∧ s'.log = s.log ∧ s'.engines = s.engines ∧
      s'.subStep = s.subStep ∧ s'.iter = s.iter ∧ s'.time = s.time ∧ s'.w = (B.act e s.w).w ∧
      s'.next = (B.act e s.w).assign.getD s.next) := by
  have h1 := assignOpt_fields { s with w := (B.act e s.w).w } (B.act e s.w).assign h
  have h2 := subOpt_fields (assignOpt { s with w := (B.act e s.w).w } (B.act e s.w).assign) (B.act e s.w).sub
  simp only at h1
  obtain ⟨a1, a2, a3, _, a4, a5, a6, a7⟩ := h1
  obtain ⟨b1, b2, b3, b4, b5, b6, b7⟩ := h2
  by_cases hr : (B.act e s.w).raises = true
  · right
    refine ⟨_, by simp only [turn, hr]; rfl, hr, ?_⟩
    simp only [b1, b2, b3, b4, b5, b6, b7, a1, a2, a3, a4, a5, a6, a7, and_self]
  · left
    have hr' : (B.act e s.w).raises = false := by simpa using hr
    refine ⟨_, by simp only [turn, hr']; rfl, hr', ⟨?_, ?_, ?_⟩, ?_⟩
    · simp [view, evG, b2, b4, b5, b6, a2, a4, a5, a6]
    · simp [b7, a7]
    · simp [b1, a1]
    · simp [b3, a3]

theorem turns_ok [Add T] (B : Beh E W T) (hB : NoRaise B) (es : List E) : ∀ s : Sc E W T, 0 ≤ s.subStep →
    ∃ s', turns B s es = .ok s' ∧ Did B s s' (es.map .eng) ∧ s'.subStep = s.subStep := by
  induction es with
  | nil => intro s _; exact ⟨s, rfl, Did.refl B s, rfl⟩
  | cons e es ih =>
    intro s hs
    rcases turn_cases B s e hs with ⟨s1, h1, _, d1, e1⟩ | ⟨s1, _, hr, _⟩
    · obtain ⟨s2, h2, d2, e2⟩ := ih s1 (by omega)
      exact ⟨s2, by simp only [turns, h1, h2], by simpa using d1.trans d2, by omega⟩
    · rw [hB] at hr; exact absurd hr (by simp)

theorem prologue_did [Add T] (B : Beh E W T) (s : Sc E W T) : Did B s (prologue B s) [.pro] := ⟨rfl, rfl, rfl⟩

theorem epilogue_did [Add T] (B : Beh E W T) (s : Sc E W T) (k : Int) :
    Did B s { epilogue B s with subStep := k } [.epi] := ⟨rfl, rfl, rfl⟩

theorem wholeStep_ok [Add T] (B : Beh E W T) (hB : NoRaise B) (s : Sc E W T) :
    ∃ s', wholeStep B s = .ok s' ∧ Did B s s' (stepEvs s.engines) ∧ s'.subStep = -1 := by
  have h0 : Did B s (prologue B { s with subStep := 0 }) [.pro] := ⟨rfl, rfl, rfl⟩
  obtain ⟨s1, h1, d1, e1⟩ := turns_ok B hB s.engines (prologue B { s with subStep := 0 }) (by simp [prologue])
  refine ⟨{ epilogue B s1 with subStep := -1 }, ?_, ?_, rfl⟩
  · have h1' : turns B (prologue B { s with subStep := 0 }) (prologue B { s with subStep := 0 }).engines = .ok s1 := h1
    simp only [wholeStep, h1']
  · exact (h0.trans d1).trans (epilogue_did B s1 (-1))

theorem stepEvs_get (es : List E) (r : Nat) : (stepEvs es)[r]? =
    if r = 0 then some .pro else if r - 1 < es.length then es[r-1]?.map .eng
    else if r - 1 = es.length then some .epi else none := by
  cases r with
  | zero => simp [stepEvs]
  | succ r =>
    simp only [stepEvs, List.getElem?_cons_succ, Nat.add_one_sub_one, Nat.add_eq_zero_iff, Nat.one_ne_zero, and_false,
      if_false]
    rcases Nat.lt_trichotomy r es.length with h | h | h
    · rw [List.getElem?_append_left (by simpa using h)]; simp [h]
    · subst h; simp
    · rw [List.getElem?_append_right (by simp; omega)]
      rw [if_neg (by omega), if_neg (by omega)]
      simp; omega

/-- one round at position `r` of the step (position 0 is the prologue) -/
theorem micro_cases [Add T] (B : Beh E W T) (s : Sc E W T) (r : Nat) (hr : r ≤ s.engines.length + 1)
    (hs : r = 0 ∨ 0 ≤ s.subStep) :
    (∃ s' ev, micro B s ((r : Int) - 1) = .ok s' ∧ (stepEvs s.engines)[r]? = some ev ∧ Did B s s' [ev] ∧
      s'.subStep = if r = s.engines.length + 1 then -2 else s.subStep) ∨
    (∃ s' e, micro B s ((r : Int) - 1) = .raised s' ∧ (stepEvs s.engines)[r]? = some (.eng e) ∧
      (B.act e s.w).raises = true ∧ s'.log = s.log ∧ s'.engines = s.engines ∧
      s'.subStep = s.subStep ∧ s'.iter = s.iter ∧ s'.time = s.time ∧ s'.w = (B.act e s.w).w ∧
      s'.next = (B.act e s.w).assign.getD s.next) := by
  rw [stepEvs_get]
  by_cases h0 : r = 0
  · left
    subst h0
    refine ⟨prologue B s, .pro, by simp [micro], by simp, prologue_did B s, ?_⟩
    simp [prologue]
  · rw [if_neg h0]
    have hs' : 0 ≤ s.subStep := by omega
    by_cases h1 : r - 1 < s.engines.length
    · have e1 : ((r : Int) - 1).toNat = r - 1 := by omega
      have hg : s.engines[r-1]? = some s.engines[r-1] := List.getElem?_eq_getElem h1
      have hm : micro B s ((r : Int) - 1) = turn B s s.engines[r-1] := by
        rw [micro, if_neg (by omega), if_pos (by constructor <;> omega), e1]
        simp only [hg]
      rw [if_pos h1, hg, hm]
      rcases turn_cases B s s.engines[r-1] hs' with ⟨s', a, _, c, d⟩ | ⟨s', a, b⟩
      · left
        refine ⟨s', _, a, rfl, c, ?_⟩
        rw [d, if_neg (by omega)]
      · right
        exact ⟨s', s.engines[r-1], a, rfl, b.1, b.2⟩
    · left
      have h2 : r - 1 = s.engines.length := by omega
      have h3 : r = s.engines.length + 1 := by omega
      rw [if_neg h1, if_pos h2]
      refine ⟨{ epilogue B s with subStep := -2 }, .epi, ?_, rfl, epilogue_did B s _, by simp [h3]⟩
      rw [micro, if_neg (by omega), if_neg (by omega), if_pos (by omega)]

theorem drop_take_succ {α} (l : List α) (r k : Nat) (x : α) (h : l[r]? = some x) :
    (l.drop r).take (k+1) = x :: (l.drop (r+1)).take k := by
  obtain ⟨hr, rfl⟩ := List.getElem?_eq_some_iff.mp h
  rw [List.drop_eq_getElem_cons hr]
  rfl

theorem micros_ok [Add T] (B : Beh E W T) (hB : NoRaise B) : ∀ (k : Nat) (s : Sc E W T) (r : Nat),
    r + k ≤ s.engines.length + 2 → (k ≤ 1 ∧ r = 0 ∨ 0 ≤ s.subStep) →
    ∃ s', micros B s ((r : Int) - 1) k = .ok s' ∧ Did B s s' (((stepEvs s.engines).drop r).take k) ∧
      s'.subStep = if k ≠ 0 ∧ r + k = s.engines.length + 2 then -2 else s.subStep := by
  intro k
  induction k with
  | zero => intro s r _ _; exact ⟨s, rfl, by simpa using Did.refl B s, by simp⟩
  | succ k ih =>
    intro s r h1 h2
    rcases micro_cases B s r (by omega) (by omega) with ⟨s1, ev, hm, hg, d1, e1⟩ | ⟨s1, e, _, _, hr, _⟩
    · rw [drop_take_succ _ _ _ _ hg]
      by_cases hk : k = 0
      · subst hk
        refine ⟨s1, by simp only [micros, hm], by simpa using d1, ?_⟩
        rw [e1]
        split <;> split <;> first | rfl | omega
      · have hs1 : 0 ≤ s1.subStep := by rw [e1, if_neg (by omega)]; omega
        obtain ⟨s2, hm2, d2, e2⟩ := ih s1 (r+1) (by rw [d1.engines]; omega) (Or.inr hs1)
        have e3 : ((r + 1 : Nat) : Int) - 1 = (r : Int) - 1 + 1 := by omega
        rw [e3] at hm2
        rw [d1.engines] at d2 e2
        refine ⟨s2, by simp only [micros, hm, hm2], d1.trans d2, ?_⟩
        rw [e2, e1]
        (repeat' split) <;> omega
    · rw [hB] at hr; exact absurd hr (by simp)

/-- position inside the step: `subStep+1` -/
def At (s : Sc E W T) (r : Nat) : Prop := s.subStep = (r : Int) - 1 ∧ r ≤ s.engines.length + 1

theorem clampSub_at {s : Sc E W T} {r : Nat} (h : At s r) : clampSub s = s := by
  have := h.1; have := h.2
  rw [clampSub, if_neg (by omega)]

/-- the events a call performs from position `r` -/
def chunk (es : List E) (r : Nat) (sub : Bool) : List (Ev E) :=
  if sub then ((stepEvs es).drop r).take 1 else (stepEvs es).drop r

/-- end of the loop of sub-steps -/
def finish : Out (Sc E W T) → Out (Sc E W T)
  | .ok s => .ok { s with subStep := s.subStep + 1 }
  | .raised s => .raised s

theorem partStep_eq [Add T] (B : Beh E W T) (s : Sc E W T) (r : Nat) (h : At s r) :
    partStep B s = finish (micros B s ((r : Int) - 1)
      (if s.subStepping then 1 else s.engines.length + 2 - r)) := by
  have h1 := h.1; have h2 := h.2
  have e1 : ((if s.subStepping then (r : Int) - 1 else (s.engines.length : Int)) - ((r : Int) - 1) + 1).toNat =
      (if s.subStepping then 1 else s.engines.length + 2 - r) := by
    split <;> omega
  rw [← e1, partStep, clampSub_at h, h1]
  rfl

theorem partStep_ok [Add T] (B : Beh E W T) (hB : NoRaise B) (s : Sc E W T) (r : Nat) (h : At s r)
    (hs : s.subStepping = true ∨ r ≠ 0) :
    ∃ s', partStep B s = .ok s' ∧ Did B s s' (chunk s.engines r s.subStepping) ∧
      s'.subStep = if s.subStepping = true ∧ r ≤ s.engines.length then (r : Int) else -1 := by
  have h1 := h.1; have h2 := h.2
  rw [partStep_eq B s r h]
  cases hsub : s.subStepping with
  | true =>
    obtain ⟨s1, a, b, c⟩ := micros_ok B hB 1 s r (by omega) (by omega)
    refine ⟨{ s1 with subStep := s1.subStep + 1 }, ?_, ?_, ?_⟩
    · rw [if_pos rfl, a]; rfl
    · simpa [chunk] using (⟨b.view, b.log, b.engines⟩ : Did B s { s1 with subStep := s1.subStep + 1 } _)
    · simp only [c]
      (repeat' split) <;> simp_all <;> omega
  | false =>
    have hr : r ≠ 0 := by simpa [hsub] using hs
    obtain ⟨s1, a, b, c⟩ := micros_ok B hB (s.engines.length + 2 - r) s r (by omega) (by omega)
    refine ⟨{ s1 with subStep := s1.subStep + 1 }, ?_, ?_, ?_⟩
    · rw [if_neg (by simp), a]; rfl
    · have : ((stepEvs s.engines).drop r).take (s.engines.length + 2 - r) = (stepEvs s.engines).drop r := by
        apply List.take_of_length_le; simp [stepEvs_length]
      rw [this] at b
      simpa [chunk] using (⟨b.view, b.log, b.engines⟩ : Did B s { s1 with subStep := s1.subStep + 1 } _)
    · simp only [c]
      rw [if_pos (by omega)]; simp

/-- a call, after the pending engine list has been adopted if it has -/
theorem move_ok [Add T] (B : Beh E W T) (hB : NoRaise B) (s : Sc E W T) (r : Nat) (h : At (adopt s) r) :
    ∃ s', move B s = .ok s' ∧ Did B (adopt s) s' (chunk (adopt s).engines r (adopt s).subStepping) ∧
      s'.subStep = if (adopt s).subStepping = true ∧ r ≤ (adopt s).engines.length then (r : Int) else -1 := by
  unfold move
  by_cases hc : ((!(adopt s).subStepping && decide ((adopt s).subStep < 0)) = true)
  · rw [if_pos hc]
    simp only [Bool.and_eq_true, Bool.not_eq_true', decide_eq_true_eq] at hc
    have hr : r = 0 := by have := h.1; omega
    obtain ⟨s', a, b, c⟩ := wholeStep_ok B hB (adopt s)
    refine ⟨s', a, ?_, ?_⟩
    · simpa [chunk, hc.1, hr] using b
    · simp [c, hc.1]
  · rw [if_neg hc]
    simp only [Bool.and_eq_true, Bool.not_eq_true', decide_eq_true_eq, not_and] at hc
    apply partStep_ok B hB _ r h
    by_cases hs : (adopt s).subStepping = true
    · exact Or.inl hs
    · right
      have := hc (by simpa using hs); have := h.1; omega

theorem adopt_nil {s : Sc E W T} (h : s.next = []) : adopt s = s := by simp [adopt, h]

theorem at_next {s s' : Sc E W T} {r : Nat} {b : Bool} (he : s'.engines = s.engines)
    (h : s'.subStep = if b = true ∧ r ≤ s.engines.length then (r : Int) else -1) :
    At s' (if b = true ∧ r ≤ s.engines.length then r + 1 else 0) := by
  constructor
  · rw [h]; split <;> simp
  · rw [he]; split <;> omega

end Verif.Step
