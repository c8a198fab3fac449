import Verif.Run.Progress

/-! # Giving up the runner -/
namespace Verif.Run

/-- only script 0 gives commands and does not spawn single actions; it gives up the runner only when no started thread is yet to lock the
mutex of the loop -/
def Tidy (s : St) (t : Nat) : Choice → Prop
  | .call c => t = 0 ∧ c ≠ .spawn ∧ (c = .load ∨ c = .reset → ∀ u, s.pc u ≠ .enter)
  | _ => True

/-- places inside `O.load` and `O.reset` -/
def giving : CPc → Bool
  | .begin .load | .begin .reset | .loadOut => true
  | .stopTest _ | .stopRd _ | .stopLk _ | .dRead _ | .dLock _ | .dTerm _ | .dRun _ | .dCall _ | .dFree _ | .dFree2 _ | .dGone _ => true
  | _ => false

/-- places after the mutex of the loop was locked by the destructor -/
def late : CPc → Bool
  | .dCall _ | .dFree _ | .dFree2 _ | .dGone _ => true
  | _ => false

/-- places of the script -/
def scriptPc : Pc → Bool
  | .idle => true
  | .cmd c none => match c with
    | .begin .spawn | .spawnBool | .spawnCall | .spawnDo | .spawnRel1 | .spawnRel2 => false
    | _ => true
  | _ => false

/-- places of the background threads -/
def bgPc : Pc → Bool
  | .lockCall l | .setTerm l | .act l | .fin l _ => l
  | .crash | .idle | .cmd _ _ => false
  | _ => true

/-- places without the runner -/
def outside : Pc → Bool
  | .idle | .cmd .back none | .cmd .finish none => true
  | _ => false

structure TidyInv (s : St) : Prop where
  script : scriptPc (s.pc 0) = true
  bg : ∀ t, t ≠ 0 → bgPc (s.pc t) = true
  begun : ∀ c, s.pc 0 = .cmd c none → giving c = true → ∀ t, s.pc t ≠ .enter
  gone : ∀ c, s.pc 0 = .cmd c none → late c = true → ∀ t, t ≠ 0 → s.pc t = .unborn ∨ s.pc t = .done
  dead : s.g.alive = false → outside (s.pc 0) = true ∧ ∀ t, t ≠ 0 → s.pc t = .unborn ∨ s.pc t = .done

theorem tidy_init (i : Nat) : TidyInv (init [0] i) := by
  constructor
  · simp [init, scriptPc]
  · intro t ht
    simp [init, ht, bgPc]
  · intro c h
    simp [init] at h
  · intro c h
    simp [init] at h
  · intro h
    simp [init] at h

/-- what one instruction of the script does -/
inductive ScriptEff (s s' : St) : Prop where
  | fork (u : Nat) (hu : u ≠ 0) (c : CPc) (h0 : s'.pc 0 = .cmd c none) (hc : giving c = false) (hl : late c = false)
      (hs : scriptPc (s'.pc 0) = true) (hn : s'.pc u = .enter) (ho : ∀ t, t ≠ 0 → t ≠ u → s'.pc t = s.pc t) (ha : s'.g.alive = true)
  | keep (ho : ∀ t, t ≠ 0 → s'.pc t = s.pc t) (hs : scriptPc (s'.pc 0) = true)
      (hb : ∀ c, s'.pc 0 = .cmd c none → giving c = true → ∀ t, t ≠ 0 → s.pc t ≠ .enter)
      (hg : ∀ c, s'.pc 0 = .cmd c none → late c = true → ∀ t, t ≠ 0 → s.pc t = .unborn ∨ s.pc t = .done)
      (hd : s'.g.alive = false → outside (s'.pc 0) = true ∧ ∀ t, t ≠ 0 → s.pc t = .unborn ∨ s.pc t = .done)

theorem bg_out {p : Pc} (h : bgPc p = true) (he : p ≠ .enter) (hr : holds .runM p = false) : p = .unborn ∨ p = .done := by
  cases p <;> simp_all [bgPc, holds, holdsRun]

theorem entry_script {c : Cmd} (h : c ≠ .spawn) : scriptPc (entry none c) = true := by
  cases c <;> first | rfl | exact absurd rfl h

theorem entry_giving {c : Cmd} {c' : CPc} (h : entry none c = .cmd c' none) (hg : giving c' = true) : c = .load ∨ c = .reset := by
  cases c <;> cases h <;> first | exact Or.inl rfl | exact Or.inr rfl | cases hg

theorem entry_late {c : Cmd} {c' : CPc} (h : entry none c = .cmd c' none) : late c' = false := by
  cases c <;> cases h <;> rfl

theorem first_script {c : Cmd} (h : scriptPc (.cmd (.begin c) none) = true) : scriptPc (.cmd (first c) none) = true := by
  cases c <;> first | rfl | cases h

theorem first_giving {c : Cmd} {c' : CPc} (h : Pc.cmd (first c) none = .cmd c' none) (hg : giving c' = true) : giving (.begin c) = true := by
  cases c <;> cases h <;> first | rfl | cases hg

theorem first_late {c : Cmd} {c' : CPc} (h : Pc.cmd (first c) none = .cmd c' none) : late c' = false := by
  cases c <;> cases h <;> rfl

set_option maxHeartbeats 1000000 in
theorem script_eff {s s' : St} {ch : Choice} (hL : Locked s) (h : TidyInv s) (hs : step s 0 ch = .ok s') (hP : Tidy s 0 ch) :
    ScriptEff s s' := by
  have hsc := h.script
  have keep : ∀ (g : Glob) (o : Mx → Option Nat) (k : Pc), s' = ⟨g, o, Function.update s.pc 0 k⟩ → scriptPc k = true →
      (∀ c, k = .cmd c none → giving c = true → ∀ t, t ≠ 0 → s.pc t ≠ .enter) →
      (∀ c, k = .cmd c none → late c = true → ∀ t, t ≠ 0 → s.pc t = .unborn ∨ s.pc t = .done) →
      (g.alive = false → outside k = true ∧ ∀ t, t ≠ 0 → s.pc t = .unborn ∨ s.pc t = .done) → ScriptEff s s' := by
    intro g o k e h1 h2 h3 h4
    subst e
    refine .keep (fun t ht => Function.update_of_ne ht _ _) ?_ ?_ ?_ ?_ <;> simp only [Function.update_self] <;> assumption
  cases hp : s.pc 0 <;> rw [hp] at hsc <;> (try (simp [scriptPc] at hsc; done))
  case idle =>
    rcases step_cases hs with ⟨m, k, v, _, h', _, _, e⟩ | ⟨m, k, v, _, h', _, e⟩ | ⟨lk, touch, f, v, _, h', _⟩ | ⟨k, c, hcc, h', al, e⟩ |
      ⟨f, k, sub, threw, _, h', e⟩ | ⟨f, k', k, c, _, h', _⟩ <;> rw [hp] at h' <;> simp only [code] at h' <;> cases h'
    subst hcc
    obtain ⟨_, h1, h2⟩ := hP
    refine keep _ _ _ e (entry_script h1) (fun c' hc' hg t _ => h2 (entry_giving hc' hg) t) (fun c' hc' hl => ?_) ?_
    · rw [entry_late hc'] at hl
      cases hl
    · intro hd
      rw [al] at hd
      cases hd
  case cmd c r =>
    rcases r with _ | l
    case some => simp [scriptPc] at hsc
    have hal : s.g.alive = false → outside (.cmd c none) = true ∧ ∀ t, t ≠ 0 → s.pc t = .unborn ∨ s.pc t = .done := by
      intro hd
      have := h.dead hd
      rwa [hp] at this
    cases c
    case runLock w =>
      rcases step_cases hs with ⟨m, k, v, _, h', _, _, e⟩ | ⟨m, k, v, _, h', _, e⟩ | ⟨lk, touch, f, v, _, h', al, _, h''⟩ | ⟨k, c, _, h', _⟩ |
        ⟨f, k, sub, threw, _, h', e⟩ | ⟨f, k', k, c, _, h', _⟩ <;> rw [hp] at h' <;> simp only [code, codeC] at h' <;> cases h'
      have al' := al rfl
      by_cases hl : s.g.looping = true
      · simp only [hl, if_true] at h''
        rcases h'' with ⟨_, e⟩ | ⟨p, hh, _⟩
        · refine keep _ _ _ e ?_ ?_ ?_ (fun hd => ?_)
          · cases w <;> rfl
          · cases w <;> simp [afterRun, giving]
          · cases w <;> simp [afterRun, late]
          · rw [al'] at hd
            cases hd
        · cases hh
      · simp only [hl] at h''
        rcases h'' with ⟨hh, _⟩ | ⟨p, hh, hv, hv0, e⟩
        · cases hh
        cases hh
        subst e
        refine .fork v hv0 (afterRun w) ?_ ?_ ?_ ?_ ?_ (fun t ht htv => ?_) al'
        · simp only [Function.update_of_ne (Ne.symm hv0), Function.update_self]
          rfl
        · cases w <;> rfl
        · cases w <;> rfl
        · simp only [Function.update_of_ne (Ne.symm hv0), Function.update_self]
          cases w <;> rfl
        · simp
        · simp only [Function.update_of_ne htv, Function.update_of_ne ht]
    case dRun k =>
      rcases step_cases hs with ⟨m, k, v, _, h', _, hn, e⟩ | ⟨m, k, v, _, h', _, e⟩ | ⟨lk, touch, f, v, _, h', _⟩ | ⟨k, c, _, h', _⟩ |
        ⟨f, k, sub, threw, _, h', e⟩ | ⟨f, k', k, c, _, h', _⟩ <;> rw [hp] at h' <;> simp only [code, codeC] at h' <;> cases h'
      have hb := h.begun _ hp rfl
      refine keep _ _ _ e rfl (fun _ _ _ t _ => hb t) (fun _ _ _ t ht => ?_) (fun hd => ?_)
      · refine bg_out (h.bg t ht) (hb t) ?_
        by_contra hh
        have := (hL.own .runM t).2 (by simpa using hh)
        rw [hn] at this
        cases this
      · have := (hal hd).1
        simp [outside] at this
    all_goals
      rcases step_cases hs with ⟨m, k, v, _, h', _, _, e⟩ | ⟨m, k, v, _, h', _, e⟩ | ⟨lk, touch, f, v, _, h', _, _, ⟨hh, e⟩ | ⟨p, hh, _⟩⟩ | ⟨k, c, _, h', _⟩ |
        ⟨f, k, sub, threw, _, h', e⟩ | ⟨f, k', k, c, _, h', _⟩ <;> rw [hp] at h' <;> simp only [code, codeC] at h' <;> cases h'
    all_goals first
      | (simp [scriptPc] at hsc; done)
      | (simp at hh; done)
      | skip
    case none.begin =>
      rename_i c0 _ _ _
      have hb := h.begun _ hp
      refine keep _ _ _ e (first_script hsc) (fun c1 h1 h2 t _ => hb (first_giving h1 h2) t) (fun c1 h1 h2 => ?_) (fun hd => ?_)
      · rw [first_late h1] at h2
        cases h2
      · have := (hal hd).1
        simp [outside] at this
    case none.dGone =>
      have hb := h.begun _ hp rfl
      have hg := h.gone _ hp rfl
      refine keep _ _ _ e ?_ (fun _ _ _ t _ => hb t) (fun _ _ _ => hg) (fun _ => ⟨?_, hg⟩)
      · dsimp only
        split_ifs <;> rfl
      · dsimp only
        split_ifs <;> rfl
    case none.dCall =>
      exact keep _ _ _ e rfl (fun _ _ _ t _ => h.begun _ hp rfl t) (fun _ _ _ => h.gone _ hp rfl) (fun hd => by have := (hal hd).1; simp [outside] at this)
    case none.dFree =>
      exact keep _ _ _ e rfl (fun _ _ _ t _ => h.begun _ hp rfl t) (fun _ _ _ => h.gone _ hp rfl) (fun hd => by have := (hal hd).1; simp [outside] at this)
    case none.dFree2 =>
      exact keep _ _ _ e rfl (fun _ _ _ t _ => h.begun _ hp rfl t) (fun _ _ _ => h.gone _ hp rfl) (fun hd => by have := (hal hd).1; simp [outside] at this)
    case none.back =>
      refine keep _ _ _ e rfl ?_ ?_ (fun hd => ⟨rfl, (hal hd).2⟩) <;> intro c hc <;> cases hc <;> intro h0 <;> cases h0
    case none.finish =>
      refine keep _ _ _ e rfl ?_ ?_ (fun hd => ⟨rfl, (hal hd).2⟩) <;> intro c hc <;> cases hc
    all_goals
      have hb := h.begun _ hp
      have keep2 : ∀ (g : Glob) (o : Mx → Option Nat) (c' : CPc), s' = ⟨g, o, Function.update s.pc 0 (.cmd c' none)⟩ → g.alive = s.g.alive →
          scriptPc (.cmd c' none) = true ∧ (giving c' = true → ∀ t, s.pc t ≠ .enter) ∧ late c' = false → ScriptEff s s' := by
        intro g o c' e h0 ⟨h1, h2, h3⟩
        refine keep _ _ _ e h1 (fun c1 e1 e2 t _ => ?_) (fun c1 e1 e2 => ?_) (fun hd => ?_)
        · cases e1
          exact h2 e2 t
        · cases e1
          rw [h3] at e2
          cases e2
        · rw [h0] at hd
          have := (hal hd).1
          simp [outside] at this
    case none.stepAct =>
      refine keep2 _ _ _ e ?_ ?_
      · cases threw <;> rfl
      · simp [scriptPc, giving, late]
    case none.waitRep =>
      refine keep2 _ _ _ e ?_ ?_
      · dsimp only
        split_ifs <;> rfl
      · simp [scriptPc, giving, late]
    all_goals
      refine keep2 _ _ _ e rfl ?_
      cases hl : s.g.looping <;> (try (rename_i w _ _ _; cases w)) <;> simp [scriptPc, giving, late, afterRun] <;> exact hb rfl

theorem tidy_step {s s' : St} {t : Nat} {ch : Choice} (hL : Locked s) (h : TidyInv s) (hs : step s t ch = .ok s') (hP : Tidy s t ch) :
    TidyInv s' := by
  by_cases ht : t = 0
  · subst ht
    rcases script_eff hL h hs hP with ⟨u, hu, c, h0, hc, hl, hsc, hn, ho, ha⟩ | ⟨ho, hsc, hb, hg, hd⟩
    · refine ⟨hsc, fun t ht => ?_, fun c' h' hc' => ?_, fun c' h' hc' => ?_, fun hd => ?_⟩
      · by_cases htu : t = u
        · rw [htu, hn]
          rfl
        · rw [ho t ht htu]
          exact h.bg t ht
      · rw [h0] at h'
        cases h'
        rw [hc] at hc'
        cases hc'
      · rw [h0] at h'
        cases h'
        rw [hl] at hc'
        cases hc'
      · rw [ha] at hd
        cases hd
    · refine ⟨hsc, fun t ht => ?_, fun c' h' hc' t => ?_, fun c' h' hc' t ht => ?_, fun hd' => ⟨(hd hd').1, fun t ht => ?_⟩⟩
      · rw [ho t ht]
        exact h.bg t ht
      · by_cases ht : t = 0
        · rw [ht, h']
          exact fun hh => by cases hh
        · rw [ho t ht]
          exact hb c' h' hc' t ht
      · rw [ho t ht]
        exact hg c' h' hc' t ht
      · rw [ho t ht]
        exact (hd hd').2 t ht
  · -- a background thread: it moves within its own places and starts no thread
    have hbt := h.bg t ht
    have key : ∃ (g : Glob) (o : Mx → Option Nat) (k : Pc), s' = ⟨g, o, Function.update s.pc t k⟩ ∧ g.alive = s.g.alive ∧ bgPc k = true ∧ k ≠ .enter ∧
        s.pc t ≠ .unborn ∧ s.pc t ≠ .done := by
      have hP' : ∀ c, ch ≠ .call c := by
        rintro c rfl
        exact ht hP.1
      cases hp : s.pc t <;> rw [hp] at hbt <;> (try (simp [bgPc] at hbt; done))
      case act l =>
        have hl : l = true := hbt
        subst hl
        rcases step_cases hs with ⟨m, k, v, _, h', _, _, e⟩ | ⟨m, k, v, _, h', _, e⟩ | ⟨lk, touch, f, v, _, h', _⟩ | ⟨k, c, hcc, h', _, e⟩ |
          ⟨f, k, sub, threw, hcc, h', e⟩ | ⟨f, k', k, c, hcc, h', e⟩ <;> rw [hp] at h' <;> simp only [code] at h' <;> cases h'
        · refine ⟨_, _, _, e, ?_, rfl, ?_, ?_, ?_⟩
          · cases threw <;> rfl
          all_goals exact fun hh => by cases hh
        · exact absurd hcc (hP' c)
      all_goals
        rcases step_cases hs with ⟨m, k, v, _, h', _, _, e⟩ | ⟨m, k, v, _, h', _, e⟩ | ⟨lk, touch, f, v, _, h', _, _, ⟨hh, e⟩ | ⟨p, hh, _⟩⟩ | ⟨k, c, _, h', _⟩ |
          ⟨f, k, sub, threw, _, h', e⟩ | ⟨f, k', k, c, _, h', _⟩ <;> rw [hp] at h' <;> simp only [code] at h' <;> cases h'
      all_goals (try (simp at hh; done))
      case fin =>
        rename_i l th _ _
        have hl : l = true := hbt
        subst hl
        refine ⟨_, _, _, e, rfl, ?_, ?_, ?_, ?_⟩ <;> cases th <;> simp [bgPc]
      all_goals
        refine ⟨_, _, _, e, rfl, ?_, ?_, ?_, ?_⟩ <;> cases hl : s.g.looping <;> cases hte : s.g.term <;> simp_all [bgPc]
    obtain ⟨g, o, k, rfl, ha, hk, hke, hu, hd⟩ := key
    have h0 : Function.update s.pc t k 0 = s.pc 0 := Function.update_of_ne (Ne.symm ht) _ _
    have no : (∀ u, u ≠ 0 → s.pc u = .unborn ∨ s.pc u = .done) → False := fun hh => by
      rcases hh t ht with h1 | h1
      · exact hu h1
      · exact hd h1
    refine ⟨?_, fun u hu0 => ?_, fun c' h' hc' u => ?_, fun c' h' hc' => ?_, fun hd' => ?_⟩
    · dsimp only
      rw [h0]
      exact h.script
    · dsimp only
      by_cases hut : u = t
      · rw [hut, Function.update_self]
        exact hk
      · rw [Function.update_of_ne hut]
        exact h.bg u hu0
    · dsimp only at h' ⊢
      rw [h0] at h'
      by_cases hut : u = t
      · rw [hut, Function.update_self]
        exact hke
      · rw [Function.update_of_ne hut]
        exact h.begun c' h' hc' u
    · dsimp only at h'
      rw [h0] at h'
      exact (no (h.gone c' h' hc')).elim
    · dsimp only at hd'
      rw [ha] at hd'
      exact (no (h.dead hd').2).elim

theorem tidy_reach {i : Nat} {s : St} (h : Reach Tidy (init [0] i) s) : TidyInv s ∧ Locked s := by
  induction h with
  | start => exact ⟨tidy_init i, locked_init _ _⟩
  | next _ hp hs ih => exact ⟨tidy_step ih.2 ih.1 hs hp, locked_step ih.2 hs⟩

/-- with the runner gone, what is left to do does not touch it -/
theorem tidy_safe {s : St} (h : TidyInv s) (t : Nat) (ch : Choice) : step s t ch ≠ .ub := by
  intro hs
  have hd : s.g.alive = false := by
    unfold step at hs
    split at hs
    next m k u hc =>
      split_ifs at hs with h1
      exact h1.2
    next m k u hc =>
      split_ifs at hs with h1
      exact h1.2
    next lk touch f u hc =>
      by_cases h1 : touch = true ∧ s.g.alive = false
      · exact h1.2
      rw [if_neg h1] at hs
      by_cases h2 : lk = true ∧ s.own .boolM ≠ none
      · rw [if_pos h2] at hs
        cases hs
      rw [if_neg h2] at hs
      split at hs
      · cases hs
      · split_ifs at hs
    next k c hc => split_ifs at hs
    next => cases hs
    next => cases hs
    next => cases hs
    next => cases hs
  obtain ⟨h0, h1⟩ := h.dead hd
  by_cases ht : t = 0
  · subst ht
    have : s.pc 0 = .idle ∨ s.pc 0 = .cmd .back none ∨ s.pc 0 = .cmd .finish none := by
      revert h0
      cases s.pc 0 <;> simp [outside]
      rename_i c r
      cases c <;> cases r <;> simp [outside]
    rcases this with h2 | h2 | h2 <;> cases ch <;> simp [step, h2, code, codeC, hd, Mx.inRunner] at hs
    split_ifs at hs
  · rcases h1 t ht with h2 | h2 <;> cases ch <;> simp [step, h2, code] at hs

end Verif.Run
