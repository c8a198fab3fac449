import Verif.Run.Calm
import Mathlib.Tactic.Linarith

/-! # One script that runs and waits -/
namespace Verif.Run

/-- only script 0 gives commands, all of them `O.run(n,True)` with `n > 0`; steps throw only if `ex` -/
def Serial (ex : Bool) (_s : St) (t : Nat) : Choice → Prop
  | .go _ => True
  | .call c => t = 0 ∧ ∃ n, 0 < n ∧ c = .run n true
  | .finish threw => threw = true → ex = true

/-- the run has ended: all steps were made, or fewer and the failure is on record -/
def Ended (g : Glob) : Prop :=
  g.raised = false ∧ ((g.iter = g.base + g.want ∧ g.threw = false) ∨ (g.iter < g.base + g.want ∧ g.threw = true))

/-- the command has ended -/
def Over (g : Glob) : Prop :=
  (g.iter = g.base + g.want ∧ g.raised = false) ∨ (g.iter < g.base + g.want ∧ (g.raised = true ∨ g.threw = true))

/-- what holds at each place of the script -/
def scriptOk (g : Glob) : Pc → Prop
  | .idle | .cmd .finish none => g.looping = false ∧ Over g
  | .cmd (.begin (.run n true)) none | .cmd (.runSet n true) none => 0 < n ∧ g.looping = false ∧ Over g
  | .cmd (.runTest true) none | .cmd (.runLock true) none =>
    g.looping = false ∧ g.iter = g.base ∧ g.stopAt = g.base + g.want ∧ 0 < g.want ∧ g.raised = false
  | .cmd .waitTest none | .cmd .waitOut none | .cmd .waitLoop none => g.looping = true ∨ Ended g
  | .cmd .waitBack none | .cmd .waitRep none => g.looping = false ∧ Ended g
  | _ => False

/-- a run is going on -/
def Going (g : Glob) : Prop := g.raised = false ∧ g.stopAt = g.base + g.want ∧ g.base ≤ g.iter

/-- what holds at each place of a background thread -/
def bgOk (g : Glob) : Pc → Prop
  | .enter | .clear => Going g ∧ g.iter < g.stopAt
  | .test | .lockCall true | .setTerm true => Going g ∧ g.iter < g.stopAt ∧ g.threw = false
  | .act true => Going g ∧ g.iter < g.stopAt ∧ g.threw = false ∧ g.term = false
  | .fin true false | .ask => Going g ∧ g.threw = false ∧ ((g.iter = g.stopAt ∧ g.term = true) ∨ (g.iter < g.stopAt ∧ g.term = false))
  | .fin true true | .caught => Going g ∧ g.iter < g.stopAt
  | .stopRead | .stopLock => Going g ∧ ((g.iter = g.stopAt ∧ g.threw = false) ∨ (g.iter < g.stopAt ∧ g.threw = true))
  | .leave | .done | .unborn => True
  | _ => False

/-- places reached by an exception -/
def failing : Pc → Bool
  | .fin _ true | .caught => true
  | _ => false

structure SerialInv (ex : Bool) (s : St) : Prop where
  script : scriptOk s.g (s.pc 0)
  bg : ∀ t, t ≠ 0 → bgOk s.g (s.pc t)
  fine : ex = false → s.g.threw = false ∧ s.g.raised = false ∧ ∀ t, failing (s.pc t) = false

theorem serial_init (ex : Bool) (i : Nat) : SerialInv ex (init [0] i) := by
  constructor
  · simp [init, scriptOk, Over]
  · intro t ht
    simp [init, ht, bgOk]
  · intro _
    refine ⟨rfl, rfl, fun t => ?_⟩
    simp only [init]
    split_ifs <;> rfl

theorem bg_idle {g g' : Glob} {p : Pc} (h : bgOk g p) (ha : active p = false) : bgOk g' p := by
  cases p <;> simp_all [bgOk, active]

theorem serial_self {ex : Bool} {s s' : St} {ch : Choice} (hC : Calm s) (h : SerialInv ex s) (hs : step s 0 ch = .ok s')
    (hP : Serial ex s 0 ch) : SerialInv ex s' := by
  have hsc := h.script
  have quiet : s.g.looping = false → ∀ g t, t ≠ 0 → bgOk g (s.pc t) := fun hl g t ht => bg_idle (h.bg t ht) (hC.off hl t)
  have upd : ∀ (k : Pc), failing k = false → (∀ t, failing (s.pc t) = false) → ∀ t, failing (Function.update s.pc 0 k t) = false := by
    intro k hk hf t
    by_cases ht : t = 0
    · rw [ht, Function.update_self]
      exact hk
    · rw [Function.update_of_ne ht]
      exact hf t
  have bgu : ∀ (g : Glob) (k : Pc), (∀ t, t ≠ 0 → bgOk g (s.pc t)) → ∀ t, t ≠ 0 → bgOk g (Function.update s.pc 0 k t) := by
    intro g k hb t ht
    rw [Function.update_of_ne ht]
    exact hb t ht
  cases hp : s.pc 0 <;> rw [hp] at hsc
  case idle =>
    rcases step_cases hs with ⟨m, k, v, _, h', _, _, e⟩ | ⟨m, k, v, _, h', _, e⟩ | ⟨lk, touch, f, v, _, h', _⟩ | ⟨k, c, hcc, h', _, e⟩ |
      ⟨f, k, sub, threw, _, h', e⟩ | ⟨f, k', k, c, _, h', _⟩ <;> rw [hp] at h' <;> simp only [code] at h' <;> cases h'
    subst hcc
    obtain ⟨_, n, hn, rfl⟩ := hP
    subst e
    refine ⟨?_, bgu _ _ h.bg, fun he => ⟨(h.fine he).1, (h.fine he).2.1, upd _ rfl (h.fine he).2.2⟩⟩
    simp only [Function.update_self, entry, scriptOk]
    exact ⟨hn, hsc⟩
  case cmd c r =>
    rcases r with _ | l
    case some => cases c <;> simp [scriptOk] at hsc
    cases c
    case runLock w =>
      cases w
      case false => simp [scriptOk] at hsc
      obtain ⟨hl, h1, h2, h3, h4⟩ := hsc
      rcases step_cases hs with ⟨m, k, v, _, h', _, _, e⟩ | ⟨m, k, v, _, h', _, e⟩ | ⟨lk, touch, f, v, _, h', _, _, h''⟩ | ⟨k, c, _, h', _⟩ |
        ⟨f, k, sub, threw, _, h', e⟩ | ⟨f, k', k, c, _, h', _⟩ <;> rw [hp] at h' <;> simp only [code, codeC] at h' <;> cases h'
      simp only [hl] at h''
      rcases h'' with ⟨hh, _⟩ | ⟨p, hh, hv, hv0, e⟩
      · cases hh
      cases hh
      subst e
      refine ⟨?_, fun t ht => ?_, fun he => ⟨(h.fine he).1, (h.fine he).2.1, fun t => ?_⟩⟩
      · simp only [Function.update_of_ne (Ne.symm hv0), Function.update_self]
        exact Or.inl rfl
      · by_cases htv : t = v
        · rw [htv]
          simp only [Function.update_self, bgOk, Going]
          exact ⟨⟨h4, h2, h1.ge⟩, show s.g.iter < s.g.stopAt by omega⟩
        · simp only [Function.update_of_ne htv, Function.update_of_ne ht]
          exact quiet hl _ t ht
      · by_cases htv : t = v
        · rw [htv]
          simp [failing]
        · simp only [Function.update_of_ne htv]
          exact upd _ rfl (h.fine he).2.2 t
    all_goals
      rcases step_cases hs with ⟨m, k, v, _, h', _, _, e⟩ | ⟨m, k, v, _, h', _, e⟩ | ⟨lk, touch, f, v, _, h', _, _, ⟨hh, e⟩ | ⟨p, hh, _⟩⟩ | ⟨k, c, _, h', _⟩ |
        ⟨f, k, sub, threw, _, h', e⟩ | ⟨f, k', k, c, _, h', _⟩ <;> rw [hp] at h' <;> simp only [code, codeC] at h' <;> cases h'
    all_goals first
      | (simp [scriptOk] at hsc; done)
      | (simp at hh; done)
      | skip
    case none.begin =>
      rename_i c0 _ _ _
      cases c0 <;> try (simp [scriptOk] at hsc; done)
      rename_i n w
      cases w <;> try (simp [scriptOk] at hsc; done)
      subst e
      refine ⟨?_, bgu _ _ h.bg, fun he => ⟨(h.fine he).1, (h.fine he).2.1, upd _ rfl (h.fine he).2.2⟩⟩
      simpa only [Function.update_self, first, scriptOk] using hsc
    case none.runSet =>
      rename_i n w _ _ _
      cases w <;> try (simp [scriptOk] at hsc; done)
      obtain ⟨hn, hl, ho⟩ := hsc
      subst e
      refine ⟨?_, bgu _ _ (quiet hl _), fun he => ⟨(h.fine he).1, rfl, upd _ rfl (h.fine he).2.2⟩⟩
      simp only [Function.update_self, scriptOk]
      simp [hl, hn]
    case none.runTest =>
      rename_i w _ _ _
      cases w <;> try (simp [scriptOk] at hsc; done)
      subst e
      refine ⟨?_, bgu _ _ h.bg, fun he => ⟨(h.fine he).1, (h.fine he).2.1, upd _ ?_ (h.fine he).2.2⟩⟩
      · simp only [Function.update_self, hsc.1]
        exact hsc
      · simp only [hsc.1]
        rfl
    case none.waitTest =>
      subst e
      refine ⟨?_, bgu _ _ h.bg, fun he => ⟨(h.fine he).1, (h.fine he).2.1, upd _ ?_ (h.fine he).2.2⟩⟩
      · simp only [Function.update_self]
        by_cases hl : s.g.looping = true
        · simp [hl, scriptOk]
        · simp only [hl, scriptOk]
          rcases hsc with h1 | ⟨h0, h1 | h1⟩
          · exact absurd h1 hl
          · exact ⟨by simpa using hl, Or.inl ⟨h1.1, h0⟩⟩
          · exact ⟨by simpa using hl, Or.inr ⟨h1.1, Or.inr h1.2⟩⟩
      · dsimp only
        split_ifs <;> rfl
    case none.waitOut =>
      subst e
      refine ⟨?_, bgu _ _ h.bg, fun he => ⟨(h.fine he).1, (h.fine he).2.1, upd _ rfl (h.fine he).2.2⟩⟩
      simpa only [Function.update_self, scriptOk] using hsc
    case none.waitLoop =>
      subst e
      refine ⟨?_, bgu _ _ h.bg, fun he => ⟨(h.fine he).1, (h.fine he).2.1, upd _ ?_ (h.fine he).2.2⟩⟩
      · simp only [Function.update_self]
        by_cases hl : s.g.looping = true
        · simp [hl, scriptOk]
        · simp only [hl, scriptOk]
          rcases hsc with h1 | h1
          · exact absurd h1 hl
          · exact ⟨by simpa using hl, h1⟩
      · dsimp only
        split_ifs <;> rfl
    case none.waitBack =>
      subst e
      refine ⟨?_, bgu _ _ h.bg, fun he => ⟨(h.fine he).1, (h.fine he).2.1, upd _ rfl (h.fine he).2.2⟩⟩
      simpa only [Function.update_self, scriptOk] using hsc
    case none.waitRep =>
      obtain ⟨hl, h0, h1⟩ := hsc
      subst e
      refine ⟨?_, bgu _ _ (quiet hl _), fun he => ⟨?_, ?_, upd _ rfl (h.fine he).2.2⟩⟩
      · simp only [Function.update_self, scriptOk]
        rcases h1 with ⟨h1, h2⟩ | ⟨h1, h2⟩
        · simp only [h2]
          exact ⟨hl, Or.inl ⟨h1, h0⟩⟩
        · simp only [h2, if_true]
          exact ⟨hl, Or.inr ⟨h1, Or.inl rfl⟩⟩
      · dsimp only
        rw [(h.fine he).1]
        exact (h.fine he).1
      · dsimp only
        rw [(h.fine he).1]
        exact (h.fine he).2.1
    case none.finish =>
      subst e
      refine ⟨?_, bgu _ _ h.bg, fun he => ⟨(h.fine he).1, (h.fine he).2.1, upd _ rfl (h.fine he).2.2⟩⟩
      simpa only [Function.update_self, scriptOk, ret] using hsc
  all_goals simp [scriptOk] at hsc

/-- the script's condition after a background thread has changed the shared variables -/
theorem script_keep {g g' : Glob} {p : Pc} (h : scriptOk g p) (hl : g.looping = true) (hl' : g'.looping = true ∨ Ended g') : scriptOk g' p := by
  rcases p with _ | _ | _ | _ | _ | _ | _ | _ | _ | _ | _ | _ | _ | _ | _ | _ | ⟨c, r⟩
  case cmd =>
    rcases r with _ | l
    · cases c <;> try (simp_all [scriptOk]; done)
      all_goals first
        | (rename_i w; cases w <;> simp_all [scriptOk]; done)
        | (rename_i n w; cases w <;> simp_all [scriptOk]; done)
        | (rename_i c; cases c <;> first | (simp_all [scriptOk]; done) | (rename_i w; cases w <;> simp_all [scriptOk]))
    · cases c <;> simp_all [scriptOk]
  all_goals simp_all [scriptOk]

theorem serial_other {ex : Bool} {s s' : St} {t : Nat} {ch : Choice} (ht0 : t ≠ 0) (hC : Calm s) (h : SerialInv ex s)
    (hs : step s t ch = .ok s') (hP : Serial ex s t ch) : SerialInv ex s' := by
  have hb := h.bg t ht0
  -- what is to be shown when `t` moves to `k` and the shared variables become `g`
  have fin : ∀ (g : Glob) (o : Mx → Option Nat) (k : Pc), s' = ⟨g, o, Function.update s.pc t k⟩ →
      (g = s.g ∨ (active (s.pc t) = true ∧ (g.looping = true ∨ Ended g))) → bgOk g k →
      (ex = false → g.threw = false ∧ g.raised = false ∧ failing k = false) → SerialInv ex s' := by
    intro g o k e h1 h2 h3
    subst e
    refine ⟨?_, fun u hu => ?_, fun he => ⟨(h3 he).1, (h3 he).2.1, fun u => ?_⟩⟩
    · simp only [Function.update_of_ne (Ne.symm ht0)]
      rcases h1 with rfl | ⟨ha, h1⟩
      · exact h.script
      · refine script_keep h.script ?_ h1
        by_contra hh
        have := hC.off (by simpa using hh) t
        rw [ha] at this
        cases this
    · dsimp only
      by_cases hut : u = t
      · rw [hut, Function.update_self]
        exact h2
      · rw [Function.update_of_ne hut]
        rcases h1 with rfl | ⟨ha, _⟩
        · exact h.bg u hu
        · refine bg_idle (h.bg u hu) ?_
          by_contra hh
          exact hut (hC.one u t (by simpa using hh) ha)
    · dsimp only
      by_cases hut : u = t
      · rw [hut, Function.update_self]
        exact (h3 he).2.2
      · rw [Function.update_of_ne hut]
        exact (h.fine he).2.2 u
  have lo : active (s.pc t) = true → s.g.looping = true := by
    intro ha
    by_contra hh
    have := hC.off (by simpa using hh) t
    rw [ha] at this
    cases this
  cases hp : s.pc t <;> rw [hp] at hb
  case act l =>
    cases l
    case false => simp [bgOk] at hb
    have hl := lo (by rw [hp]; rfl)
    rcases step_cases hs with ⟨m, k, v, _, h', _, _, e⟩ | ⟨m, k, v, _, h', _, e⟩ | ⟨lk, touch, f, v, _, h', _⟩ | ⟨k, c, hcc, h', _, e⟩ |
      ⟨f, k, sub, threw, hcc, h', e⟩ | ⟨f, k', k, c, hcc, h', e⟩ <;> rw [hp] at h' <;> simp only [code] at h' <;> cases h'
    · obtain ⟨⟨g0, g1, g2⟩, g3, g4, g5⟩ := hb
      refine fin _ _ _ e (Or.inr ⟨by rw [hp]; rfl, Or.inl ?_⟩) ?_ fun he => ?_
      · simp only [flow]
        split_ifs <;> exact hl
      · cases threw
        · simp only [flow, bgOk, Going, g0, g1, g4, g5]
          refine ⟨⟨rfl, rfl, by simp only [Bool.false_eq_true, if_false]; omega⟩, rfl, ?_⟩
          by_cases hh : s.g.iter + 1 = s.g.base + s.g.want
          · left
            rw [g1] at g3
            simp [hh]
            omega
          · right
            rw [g1] at g3
            simp [hh]
            omega
        · simp only [flow, bgOk, if_true]
          exact ⟨⟨g0, g1, g2⟩, g3⟩
      · have := hP
        subst hcc
        cases threw
        · refine ⟨?_, ?_, rfl⟩
          · simp [flow, g4]
          · simp [flow, g0]
        · rw [this rfl] at he
          cases he
    · subst hcc
      exact absurd hP.1 ht0
  all_goals
    rcases step_cases hs with ⟨m, k, v, _, h', _, _, e⟩ | ⟨m, k, v, _, h', _, e⟩ | ⟨lk, touch, f, v, _, h', _, _, ⟨hh, e⟩ | ⟨p, hh, _⟩⟩ | ⟨k, c, _, h', _⟩ |
      ⟨f, k, sub, threw, _, h', e⟩ | ⟨f, k', k, c, _, h', _⟩ <;> rw [hp] at h' <;> simp only [code] at h' <;> (try (cases h'; done)) <;>
      (try (simp [bgOk] at hb; done)) <;> cases h'
  all_goals (try (simp at hh; done))
  case enter =>
    exact fin _ _ _ e (Or.inl rfl) hb fun he => ⟨(h.fine he).1, (h.fine he).2.1, rfl⟩
  case clear =>
    exact fin _ _ _ e (Or.inr ⟨by rw [hp]; rfl, Or.inl (lo (by rw [hp]; rfl))⟩) ⟨hb.1, hb.2, rfl⟩ fun he => ⟨rfl, (h.fine he).2.1, rfl⟩
  case test =>
    have hl := lo (by rw [hp]; rfl)
    simp only [hl, if_true] at e
    exact fin _ _ _ e (Or.inl rfl) hb fun he => ⟨(h.fine he).1, (h.fine he).2.1, rfl⟩
  case lockCall =>
    rename_i l _ _ _
    cases l
    · simp [bgOk] at hb
    exact fin _ _ _ e (Or.inl rfl) hb fun he => ⟨(h.fine he).1, (h.fine he).2.1, rfl⟩
  case setTerm =>
    rename_i l _ _ _
    cases l
    · simp [bgOk] at hb
    exact fin _ _ _ e (Or.inr ⟨by rw [hp]; rfl, Or.inl (lo (by rw [hp]; rfl))⟩) ⟨hb.1, hb.2.1, hb.2.2, rfl⟩
      fun he => ⟨(h.fine he).1, (h.fine he).2.1, rfl⟩
  case fin =>
    rename_i l th _ _
    have hfail := fun he => (h.fine he).2.2 t
    rw [hp] at hfail
    cases l <;> cases th
    · simp [bgOk] at hb
    · simp [bgOk] at hb
    · exact fin _ _ _ e (Or.inl rfl) hb fun he => ⟨(h.fine he).1, (h.fine he).2.1, rfl⟩
    · exact fin _ _ _ e (Or.inl rfl) hb fun he => ⟨(h.fine he).1, (h.fine he).2.1, hfail he⟩
  case ask =>
    obtain ⟨h1, h2, h3⟩ := hb
    refine fin _ _ _ e (Or.inl rfl) ?_ fun he => ⟨(h.fine he).1, (h.fine he).2.1, ?_⟩
    · rcases h3 with ⟨h3, h4⟩ | ⟨h3, h4⟩
      · simp only [h4, if_true]
        exact ⟨h1, Or.inl ⟨h3, h2⟩⟩
      · simp only [h4]
        exact ⟨h1, h3, h2⟩
    · dsimp only
      split_ifs <;> rfl
  case caught =>
    have hfail := fun he => (h.fine he).2.2 t
    rw [hp] at hfail
    refine fin _ _ _ e (Or.inr ⟨by rw [hp]; rfl, Or.inl (lo (by rw [hp]; rfl))⟩) ⟨hb.1, Or.inr ⟨hb.2, rfl⟩⟩ fun he => ?_
    have := hfail he
    simp [failing] at this
  case stopRead =>
    have hl := lo (by rw [hp]; rfl)
    simp only [hl, if_true] at e
    exact fin _ _ _ e (Or.inl rfl) hb fun he => ⟨(h.fine he).1, (h.fine he).2.1, rfl⟩
  case stopLock =>
    obtain ⟨⟨h0, h1, h1'⟩, h2⟩ := hb
    refine fin _ _ _ e (Or.inr ⟨by rw [hp]; rfl, Or.inr ⟨h0, ?_⟩⟩) trivial fun he => ⟨(h.fine he).1, (h.fine he).2.1, rfl⟩
    dsimp only
    rwa [h1] at h2
  case leave =>
    exact fin _ _ _ e (Or.inl rfl) trivial fun he => ⟨(h.fine he).1, (h.fine he).2.1, rfl⟩

theorem serial_reach {ex : Bool} {i : Nat} {s : St} (h : Reach (Serial ex) (init [0] i) s) : SerialInv ex s ∧ Calm s := by
  have hcalm : ∀ {s' : St}, Reach (Serial ex) (init [0] i) s' → Calm s' := fun hr => by
    refine calm_reach (fun s t c hp => ?_) (locked_init _ _) (calm_init _ _) hr
    obtain ⟨_, n, _, rfl⟩ := hp
    rfl
  refine ⟨?_, hcalm h⟩
  induction h with
  | start => exact serial_init ex i
  | @next s1 s2 t ch hr hp hs ih =>
    by_cases ht : t = 0
    · subst ht
      exact serial_self (hcalm hr) ih hs hp
    · exact serial_other ht (hcalm hr) ih hs hp

end Verif.Run
