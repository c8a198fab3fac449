import Verif.Run.Lemmas

/-! # Executions without `O.pause`, `O.load`, `O.reset`: at most one thread is responsible for the loop -/
namespace Verif.Run

/-- commands that do not interrupt a run -/
def Cmd.calm : Cmd → Bool
  | .run _ _ | .wait | .step => true
  | _ => false

/-- places reached with such commands -/
def calmC : CPc → Bool
  | .begin c => c.calm
  | .runSet _ _ | .runTest _ | .runLock _ | .waitTest | .waitOut | .waitLoop | .waitBack | .waitRep | .stepTest | .stepAct | .finish => true
  | _ => false

/-- places reached with such commands -/
def calm : Pc → Bool
  | .lockCall l | .setTerm l | .act l | .fin l _ => l
  | .cmd c r => calmC c && (r != some false)
  | .crash => false
  | _ => true

/-- places of a background thread before it has switched the loop off -/
def active : Pc → Bool
  | .enter | .clear | .test | .lockCall _ | .setTerm _ | .act _ | .fin _ _ | .ask | .caught | .stopRead | .stopLock => true
  | .cmd _ (some _) => true
  | _ => false

/-- inside `O.step()` -/
def ownStep : Pc → Bool
  | .cmd .stepAct _ => true
  | _ => false

/-- what one instruction does to the loop flag and the threads, when no command interrupts -/
inductive Eff (s s' : St) (t : Nat) : Prop where
  | keep (hl : s'.g.looping = s.g.looping) (ho : ∀ u, u ≠ t → s'.pc u = s.pc u) (ha : active (s'.pc t) = true → active (s.pc t) = true)
      (hc : calm (s'.pc t) = true) (hw : ownStep (s'.pc t) = true → s.g.looping = false)
  | fork (u : Nat) (hl : s.g.looping = false) (hl' : s'.g.looping = true) (hu : u ≠ t) (hb : s.pc u = .unborn)
      (ho : ∀ v, v ≠ t → v ≠ u → s'.pc v = s.pc v) (hn : s'.pc u = .enter) (ha : active (s'.pc t) = true → active (s.pc t) = true)
      (hc : calm (s'.pc t) = true) (hw : ownStep (s'.pc t) = false) (hg : holds .gil (s.pc t) = true)
  | off (hl' : s'.g.looping = false) (ho : ∀ u, u ≠ t → s'.pc u = s.pc u) (ha : active (s.pc t) = true) (hp : s'.pc t = .leave)

theorem eff_of {s s' : St} {t : Nat} {g : Glob} {o : Mx → Option Nat} {k p : Pc} (hp : s.pc t = p)
    (e : s' = ⟨g, o, Function.update s.pc t k⟩) (hl : g.looping = s.g.looping) (ha : active k = true → active p = true)
    (hc : calm k = true) (hw : ownStep k = true → s.g.looping = false) : Eff s s' t := by
  subst e
  refine .keep hl (fun u hu => ?_) ?_ ?_ ?_
  · exact Function.update_of_ne hu _ _
  · rw [hp]
    simpa using ha
  · simpa using hc
  · simpa using hw

theorem calm_eff {s s' : St} {t : Nat} {ch : Choice} (hs : step s t ch = .ok s') (hc : calm (s.pc t) = true)
    (hch : ∀ c, ch = .call c → c.calm = true) : Eff s s' t := by
  cases hp : s.pc t
  case cmd c r =>
    rw [hp] at hc
    cases c
    case runLock w =>
      rcases step_cases hs with ⟨m, k, v, _, h, _⟩ | ⟨m, k, v, _, h, _⟩ | ⟨lk, touch, f, v, _, h, _, _, h'⟩ | ⟨k, c, _, h, _⟩ | ⟨f, k, sub, threw, _, h, _⟩ |
        ⟨f, k', k, c, _, h, _⟩ <;> rw [hp] at h <;> simp only [code, codeC] at h <;> cases h
      dsimp only at h'
      by_cases hlo : s.g.looping = true
      · simp only [hlo, if_true] at h'
        rcases h' with ⟨_, e⟩ | ⟨p, hh, _⟩
        · refine eff_of hp e rfl ?_ ?_ ?_
          · cases w <;> cases r <;> simp [active, afterRun]
          · cases w <;> simpa [calm, calmC, afterRun] using hc
          · cases w <;> simp [ownStep, afterRun]
        · cases hh
      · simp only [hlo] at h'
        rcases h' with ⟨hh, e⟩ | ⟨p, hh, hv, hvt, e⟩
        · cases hh
        · cases hh
          subst e
          refine .fork v (by simpa using hlo) rfl hvt hv (fun x hx hxv => ?_) ?_ ?_ ?_ ?_ ?_
          · simp only [Function.update_of_ne hx, Function.update_of_ne hxv]
          · simp
          · simp only [Function.update_of_ne (Ne.symm hvt), Function.update_self, hp]
            cases w <;> cases r <;> simp [active, afterRun]
          · simp only [Function.update_of_ne (Ne.symm hvt), Function.update_self]
            cases w <;> simpa [calm, calmC, afterRun] using hc
          · simp only [Function.update_of_ne (Ne.symm hvt), Function.update_self]
            cases w <;> simp [ownStep, afterRun]
          · rw [hp]
            rfl
    all_goals
      rcases step_cases hs with ⟨m, k, v, _, h, _, _, e⟩ | ⟨m, k, v, _, h, _, e⟩ | ⟨lk, touch, f, v, _, h, _, _, ⟨hh, e⟩ | ⟨p, hh, _⟩⟩ | ⟨k, c, _, h, _⟩ |
        ⟨f, k, sub, threw, _, h, e⟩ | ⟨f, k', k, c, _, h, _⟩ <;> rw [hp] at h <;> simp only [code, codeC] at h <;> cases h
    all_goals first
      | (simp [calm, calmC] at hc; done)
      | (simp at hh; done)
      | skip
    case begin =>
      rename_i c0 _ _ _
      refine eff_of hp e rfl ?_ ?_ ?_ <;> cases c0 <;> cases r <;> simp_all [active, calm, calmC, first, Cmd.calm, ownStep]
    case finish =>
      refine eff_of hp e rfl ?_ ?_ ?_ <;> rcases r with _ | l <;> (try cases l) <;> simp_all [active, calm, calmC, ret, ownStep]
    all_goals
      refine eff_of hp e ?_ ?_ ?_ ?_ <;> rcases r with _ | l <;> (try cases l) <;>
        simp_all [active, calm, calmC, ownStep, bareStep, afterRun] <;> split_ifs <;> simp_all
  case idle =>
    rcases step_cases hs with ⟨m, k, v, _, h, _, _, e⟩ | ⟨m, k, v, _, h, _, e⟩ | ⟨lk, touch, f, v, _, h, _⟩ | ⟨k, c, hcc, h, _, e⟩ |
      ⟨f, k, sub, threw, _, h, e⟩ | ⟨f, k', k, c, _, h, _⟩ <;> rw [hp] at h <;> simp only [code] at h <;> cases h
    have := hch c hcc
    refine eff_of hp e rfl ?_ ?_ ?_ <;> cases c <;> simp_all [active, calm, calmC, entry, Cmd.calm, ownStep]
  case act l =>
    rw [hp] at hc
    rcases step_cases hs with ⟨m, k, v, _, h, _, _, e⟩ | ⟨m, k, v, _, h, _, e⟩ | ⟨lk, touch, f, v, _, h, _⟩ | ⟨k, c, hcc, h, _, e⟩ |
      ⟨f, k, sub, threw, _, h, e⟩ | ⟨f, k', k, c, hcc, h, e⟩ <;> rw [hp] at h <;> simp only [code] at h <;> cases h
    · refine eff_of hp e ?_ ?_ ?_ ?_ <;> simp_all [active, calm, ownStep, flow] <;> split_ifs <;> rfl
    · have := hch c hcc
      refine eff_of hp e rfl ?_ ?_ ?_ <;> cases c <;> simp_all [active, calm, calmC, entry, Cmd.calm, ownStep]
  case stopLock =>
    rcases step_cases hs with ⟨m, k, v, _, h, _, _, e⟩ | ⟨m, k, v, _, h, _, e⟩ | ⟨lk, touch, f, v, _, h, _, _, ⟨hh, e⟩ | ⟨p, hh, _⟩⟩ | ⟨k, c, _, h, _⟩ |
      ⟨f, k, sub, threw, _, h, e⟩ | ⟨f, k', k, c, _, h, _⟩ <;> rw [hp] at h <;> simp only [code] at h <;> cases h
    · subst e
      exact .off rfl (fun u hu => Function.update_of_ne hu _ _) (by rw [hp]; rfl) (Function.update_self ..)
    · cases hh
  all_goals
    rw [hp] at hc
    rcases step_cases hs with ⟨m, k, v, _, h, _, _, e⟩ | ⟨m, k, v, _, h, _, e⟩ | ⟨lk, touch, f, v, _, h, _, _, ⟨hh, e⟩ | ⟨p, hh, _⟩⟩ | ⟨k, c, _, h, _⟩ |
      ⟨f, k, sub, threw, _, h, e⟩ | ⟨f, k', k, c, _, h, _⟩ <;> rw [hp] at h <;> simp only [code] at h <;> cases h
  all_goals first
    | (simp at hh; done)
    | (refine eff_of hp e ?_ ?_ ?_ ?_ <;> simp_all [active, calm, ownStep] <;> done)
    | (refine eff_of hp e ?_ ?_ ?_ ?_ <;> simp_all [active, calm, ownStep] <;> split_ifs <;> simp_all)

/-- as long as nothing interrupts: when the loop is off no thread works for it, at most one thread does, and `O.step` acts only when it is off -/
structure Calm (s : St) : Prop where
  calm : ∀ t, calm (s.pc t) = true
  off : s.g.looping = false → ∀ t, active (s.pc t) = false
  one : ∀ t u, active (s.pc t) = true → active (s.pc u) = true → t = u
  own : ∀ t, ownStep (s.pc t) = true → s.g.looping = false

theorem calm_init (scripts : List Nat) (i : Nat) : Calm (init scripts i) := by
  constructor
  · intro t
    simp only [init]
    split_ifs <;> rfl
  · intro _ t
    simp only [init]
    split_ifs <;> rfl
  · intro t u h
    simp only [init] at h
    split_ifs at h <;> cases h
  · intro t h
    simp only [init] at h
    split_ifs at h <;> cases h

theorem calm_step {s s' : St} {t : Nat} {ch : Choice} (hL : Locked s) (h : Calm s) (hs : step s t ch = .ok s')
    (hch : ∀ c, ch = .call c → c.calm = true) : Calm s' := by
  rcases calm_eff hs (h.calm t) hch with ⟨hl, ho, ha, hc, hw⟩ | ⟨u, hl, hl', hu, hb, ho, hn, ha, hc, hw, hg⟩ | ⟨hl', ho, ha, hp⟩
  · have key : ∀ v, active (s'.pc v) = true → active (s.pc v) = true := by
      intro v hv
      by_cases hvt : v = t
      · subst hvt
        exact ha hv
      · rwa [ho v hvt] at hv
    refine ⟨fun v => ?_, fun hf v => ?_, fun v w hv hw' => h.one v w (key v hv) (key w hw'), fun v hv => ?_⟩
    · by_cases hvt : v = t
      · subst hvt
        exact hc
      · rw [ho v hvt]
        exact h.calm v
    · by_contra hh
      have := h.off (hl ▸ hf) v
      rw [key v (by simpa using hh)] at this
      cases this
    · rw [hl]
      by_cases hvt : v = t
      · subst hvt
        exact hw hv
      · rw [ho v hvt] at hv
        exact h.own v hv
  · have nota : ∀ v, v ≠ u → active (s'.pc v) = false := by
      intro v hv
      by_cases hvt : v = t
      · subst hvt
        by_contra hh
        have := h.off hl v
        rw [ha (by simpa using hh)] at this
        cases this
      · rw [ho v hvt hv]
        exact h.off hl v
    refine ⟨fun v => ?_, fun hf => ?_, fun v w hv hw' => ?_, fun v hv => ?_⟩
    · by_cases hvu : v = u
      · rw [hvu, hn]
        rfl
      · by_cases hvt : v = t
        · subst hvt
          exact hc
        · rw [ho v hvt hvu]
          exact h.calm v
    · rw [hl'] at hf
      cases hf
    · have e1 : v = u := by
        by_contra hh
        rw [nota v hh] at hv
        cases hv
      have e2 : w = u := by
        by_contra hh
        rw [nota w hh] at hw'
        cases hw'
      rw [e1, e2]
    · exfalso
      by_cases hvt : v = t
      · subst hvt
        rw [hw] at hv
        cases hv
      · by_cases hvu : v = u
        · rw [hvu, hn] at hv
          cases hv
        · rw [ho v hvt hvu] at hv
          have h1 : holds .gil (s.pc v) = true := by
            revert hv
            rcases s.pc v with _ | _ | _ | _ | _ | _ | _ | _ | _ | _ | _ | _ | _ | _ | _ | _ | ⟨c, r⟩ <;> simp only [ownStep] <;>
              (try (intro hv; cases hv))
            cases c <;> simp [ownStep, holds, CPc.out]
          have e1 := (hL.own .gil v).2 h1
          have e2 := (hL.own .gil t).2 hg
          rw [e1] at e2
          exact hvt (Option.some.inj e2)
  · have nota : ∀ v, active (s'.pc v) = false := by
      intro v
      by_cases hvt : v = t
      · rw [hvt, hp]
        rfl
      · rw [ho v hvt]
        by_contra hh
        exact hvt (h.one v t (by simpa using hh) ha)
    refine ⟨fun v => ?_, fun _ => nota, fun v w hv => ?_, fun _ _ => hl'⟩
    · by_cases hvt : v = t
      · rw [hvt, hp]
        rfl
      · rw [ho v hvt]
        exact h.calm v
    · rw [nota v] at hv
      cases hv

theorem calm_reach {P : St → Nat → Choice → Prop} {s0 s : St} (hP : ∀ s t c, P s t (.call c) → c.calm = true)
    (hL : Locked s0) (h0 : Calm s0) (h : Reach P s0 s) : Calm s := by
  have : Calm s ∧ Locked s := by
    induction h with
    | start => exact ⟨h0, hL⟩
    | @next s1 s2 t ch _ hp hs ih =>
      refine ⟨calm_step ih.2 ih.1 hs fun c hc => ?_, locked_step ih.2 hs⟩
      subst hc
      exact hP s1 t c hp
  exact this.1

end Verif.Run
