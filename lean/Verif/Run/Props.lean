import Verif.Run.Serial
import Verif.Run.Destroy

/-! # What scripts can rely on when the simulation runs in the background -/
namespace Verif.Run

/-- executing a step of the simulation in the background (an engine may be inside a command) -/
def InBackground (p : Pc) : Prop := ∃ l, p = .act l ∨ ∃ c, p = .cmd c (some l)

/-- executing a step inside `O.step()` -/
def InOwn (p : Pc) : Prop := ∃ r, p = .cmd .stepAct r

/-- executing a step -/
def InStep (p : Pc) : Prop := InBackground p ∨ InOwn p

/-- any command at any time -/
def Anything (_ : St) (_ : Nat) (_ : Choice) : Prop := True

/-- only `O.run`, `O.wait`, `O.step` -/
def NoPause (_ : St) (_ : Nat) (ch : Choice) : Prop := ∀ c, ch = .call c → c = .wait ∨ c = .step ∨ ∃ n w, c = .run n w

/-- `O.run`, `O.pause`, `O.wait`, `O.step`; no engine waits for the run it is part of -/
def Everyday (s : St) (t : Nat) (ch : Choice) : Prop :=
  ∀ c, ch = .call c → c = .pause ∨ c = .step ∨ (∃ n w, c = .run n w ∧ (w = true → s.pc t = .idle)) ∨ (c = .wait ∧ s.pc t = .idle)

theorem exec_reach {P : St → Nat → Choice → Prop} {s0 : St} : ∀ {l : List (Nat × Choice)} {s s' : St}, Reach P s0 s →
    (∀ s t ch, (t, ch) ∈ l → P s t ch) → exec s l = .ok s' → Reach P s0 s'
  | [], s, s', h, _, e => by
    cases e
    exact h
  | (t, ch) :: l, s, s', h, hP, e => by
    unfold exec at e
    split at e
    next s1 h1 => exact exec_reach (.next h (hP _ _ _ (List.mem_cons_self ..)) h1) (fun s t ch hm => hP s t ch (List.mem_cons_of_mem _ hm)) e
    next => 
      rename_i hn
      rw [e] at hn
      exact absurd rfl (hn s')

/-- `n` instructions of thread `t` -/
def g (t n : Nat) : List (Nat × Choice) := List.replicate n (t, .go 1)

/-- script 0 gives `O.run(5)`, the new thread 1 enters its first step -/
def intoStep : List (Nat × Choice) := (0, .call (.run 5 false)) :: g 0 5 ++ g 1 5

/-! ## C194: two steps are never executed at the same time -/

theorem background_locks {p : Pc} (h : InBackground p) : holds .callM p = true := by
  obtain ⟨l, rfl | ⟨c, rfl⟩⟩ := h <;> rfl

theorem own_locks {p : Pc} (h : InOwn p) : holds .gil p = true := by
  obtain ⟨r, rfl⟩ := h
  rfl

/-- whatever commands are given by whatever threads: two background steps never overlap, neither do two steps of `O.step()`. Missing: a
background step and one of `O.step()` -/
theorem C194_alike_partial {scripts : List Nat} {i : Nat} {s : St} (h : Reach Anything (init scripts i) s) (t u : Nat) :
    (InBackground (s.pc t) → InBackground (s.pc u) → t = u) ∧ (InOwn (s.pc t) → InOwn (s.pc u) → t = u) := by
  have hL := locked_reach (locked_init _ _) h
  refine ⟨fun h1 h2 => ?_, fun h1 h2 => ?_⟩
  · have e1 := (hL.own .callM t).2 (background_locks h1)
    have e2 := (hL.own .callM u).2 (background_locks h2)
    rw [e1] at e2
    exact Option.some.inj e2
  · have e1 := (hL.own .gil t).2 (own_locks h1)
    have e2 := (hL.own .gil u).2 (own_locks h2)
    rw [e1] at e2
    exact Option.some.inj e2

theorem noPause_calm {s : St} {t : Nat} {c : Cmd} (h : NoPause s t (.call c)) : c.calm = true := by
  rcases h c rfl with rfl | rfl | ⟨n, w, rfl⟩ <;> rfl

/-- if `O.pause`, `O.load`, `O.reset` are never used, no two steps overlap -/
theorem C194_no_pause_partial {scripts : List Nat} {i : Nat} {s : St} (h : Reach NoPause (init scripts i) s) (t u : Nat)
    (ht : InStep (s.pc t)) (hu : InStep (s.pc u)) : t = u := by
  have hL := locked_reach (locked_init _ _) h
  have hC := calm_reach (fun _ _ _ hp => noPause_calm hp) (locked_init _ _) (calm_init _ _) h
  have mix : ∀ a b, InBackground (s.pc a) → InOwn (s.pc b) → a = b := by
    intro a b ha hb
    exfalso
    obtain ⟨r, hb⟩ := hb
    have h1 := hC.own b (by rw [hb]; rfl)
    have h2 := hC.off h1 a
    obtain ⟨l, ha | ⟨c, ha⟩⟩ := ha <;> rw [ha] at h2 <;> cases h2
  rcases ht with ht | ht <;> rcases hu with hu | hu
  · have e1 := (hL.own .callM t).2 (background_locks ht)
    have e2 := (hL.own .callM u).2 (background_locks hu)
    rw [e1] at e2
    exact Option.some.inj e2
  · exact mix t u ht hu
  · exact (mix u t hu ht).symm
  · have e1 := (hL.own .gil t).2 (own_locks ht)
    have e2 := (hL.own .gil u).2 (own_locks hu)
    rw [e1] at e2
    exact Option.some.inj e2

/-- `O.run(5); O.pause(); O.step()`: the step of `O.step()` runs while the background thread is still inside its last step -/
theorem C194_violated : ∃ s, Reach Anything (init [0] 0) s ∧ InBackground (s.pc 1) ∧ InOwn (s.pc 0) :=
  ⟨_, exec_reach (l := intoStep ++ (0, .call .pause) :: g 0 7 ++ (0, .call .step) :: g 0 2) .start (fun _ _ _ _ => trivial) rfl,
    ⟨true, Or.inl rfl⟩, ⟨none, rfl⟩⟩

/-- a background thread inside a step, reached with `O.run` only -/
example : ∃ s, Reach NoPause (init [0] 0) s ∧ InStep (s.pc 1) :=
  ⟨_, exec_reach (l := intoStep) .start (fun _ _ _ hm c hc => by
    simp [intoStep, g] at hm
    rcases hm with ⟨_, rfl⟩ | ⟨_, rfl⟩ | ⟨_, rfl⟩ <;> cases hc
    exact Or.inr (Or.inr ⟨5, false, rfl⟩)) rfl, Or.inl ⟨true, Or.inl rfl⟩⟩

/-! ## C195: `O.run(n)` makes `n` steps -/

/-- a script that gives `O.run(n, True)` only: whenever it goes on, exactly the `n` steps asked for were made since the command, no step is
being executed and the loop is off, for every interleaving with the background threads. Missing: requests given while an earlier run is ending -/
theorem C195_run_and_wait_partial {i : Nat} {s : St} (h : Reach (Serial false) (init [0] i) s) (h0 : s.pc 0 = .idle) :
    s.g.iter = s.g.base + s.g.want ∧ s.g.looping = false ∧ s.g.raised = false ∧ ∀ t, ¬ InStep (s.pc t) := by
  obtain ⟨hI, hC⟩ := serial_reach h
  have hs := hI.script
  rw [h0] at hs
  obtain ⟨h1, h2, h3⟩ := hI.fine rfl
  refine ⟨?_, hs.1, h2, fun t ht => ?_⟩
  · rcases hs.2 with h | ⟨_, h | h⟩
    · exact h.1
    · rw [h2] at h
      cases h
    · rw [h1] at h
      cases h
  · rcases ht with ⟨l, ht | ⟨c, ht⟩⟩ | ⟨r, ht⟩
    · have := hC.off hs.1 t
      rw [ht] at this
      cases this
    · have := hC.off hs.1 t
      rw [ht] at this
      cases this
    · have ht0 : t ≠ 0 := by
        rintro rfl
        rw [h0] at ht
        cases ht
      have := hI.bg t ht0
      rw [ht] at this
      exact this

/-- how one instruction changes the step counter and the records of the last request -/
theorem counters {s s' : St} {t : Nat} {ch : Choice} (hs : step s t ch = .ok s') :
    (s'.g.iter = s.g.iter ∧ s'.g.base = s.g.base ∧ s'.g.want = s.g.want) ∨
    (InStep (s.pc t) ∧ s'.g.iter = s.g.iter + 1 ∧ s'.g.base = s.g.base ∧ s'.g.want = s.g.want) ∨
    (s'.g.iter = s.g.iter ∧ s'.g.base = s.g.iter) := by
  rcases step_cases hs with ⟨m, k, v, _, _, _, _, rfl⟩ | ⟨m, k, v, _, _, _, rfl⟩ | ⟨lk, touch, f, v, _, hc, _, _, h⟩ | ⟨k, c, _, _, _, rfl⟩ |
    ⟨f, k, sub, threw, _, hc, rfl⟩ | ⟨f, k', k, c, _, _, rfl⟩
  · exact Or.inl ⟨rfl, rfl, rfl⟩
  · exact Or.inl ⟨rfl, rfl, rfl⟩
  · have hg : s'.g = (f s.g).1 := by
      rcases h with ⟨_, rfl⟩ | ⟨p, _, _, _, rfl⟩ <;> rfl
    rw [hg]
    cases hp : s.pc t <;> rw [hp] at hc <;> simp only [code] at hc <;> (try (cases hc; done))
    case cmd c r =>
      cases c <;> simp only [codeC] at hc <;> cases hc
      case runSet => exact Or.inr (Or.inr ⟨rfl, rfl⟩)
      all_goals first
        | exact Or.inl ⟨rfl, rfl, rfl⟩
        | (left; dsimp only; split_ifs <;> exact ⟨rfl, rfl, rfl⟩)
    all_goals
      cases hc
      exact Or.inl ⟨rfl, rfl, rfl⟩
  · exact Or.inl ⟨rfl, rfl, rfl⟩
  · cases threw
    · right; left
      cases hp : s.pc t <;> rw [hp] at hc <;> simp only [code] at hc <;> (try (cases hc; done))
      case cmd c r =>
        cases c <;> simp only [codeC] at hc <;> cases hc
        exact ⟨Or.inr ⟨r, rfl⟩, rfl, rfl, rfl⟩
      case act l =>
        cases hc
        exact ⟨Or.inl ⟨l, Or.inl rfl⟩, rfl, rfl, rfl⟩
    · left
      cases hp : s.pc t <;> rw [hp] at hc <;> simp only [code] at hc <;> (try (cases hc; done))
      case cmd c r =>
        cases c <;> simp only [codeC] at hc <;> cases hc
        exact ⟨rfl, rfl, rfl⟩
      case act l =>
        cases hc
        exact ⟨rfl, rfl, rfl⟩
  · exact Or.inl ⟨rfl, rfl, rfl⟩

/-- at no time are more than the steps asked for made, even if steps throw -/
theorem C195_never_more_partial {i : Nat} {s : St} (h : Reach (Serial true) (init [0] i) s) : s.g.iter ≤ s.g.base + s.g.want := by
  induction h with
  | start => exact Nat.le_refl _
  | @next s1 s2 t ch hr hp hs ih =>
    rcases counters hs with ⟨h1, h2, h3⟩ | ⟨hi, h1, h2, h3⟩ | ⟨h1, h2⟩
    · omega
    · obtain ⟨hI, _⟩ := serial_reach hr
      have ht0 : t ≠ 0 := by
        rintro rfl
        have := hI.script
        rcases hi with ⟨l, hi | ⟨c, hi⟩⟩ | ⟨r, hi⟩ <;> rw [hi] at this
        · exact this
        · cases c <;> simp [scriptOk] at this
        · cases r <;> exact this
      have hb := hI.bg t ht0
      rcases hi with ⟨l, hi | ⟨c, hi⟩⟩ | ⟨r, hi⟩ <;> rw [hi] at hb
      · cases l
        · exact hb.elim
        · obtain ⟨⟨_, h4, _⟩, h5, _⟩ := hb
          omega
      · exact hb.elim
      · exact hb.elim
    · omega

/-- `O.run(1)`, and a second `O.run(1)` given after the background thread has decided to end but before it has switched the loop off: all
threads come to rest with one step made and the second request forgotten -/
theorem C195_violated_late : ∃ s, Reach Anything (init [0] 0) s ∧ s.pc 0 = .idle ∧ s.pc 1 = .done ∧ s.g.looping = false ∧
    s.g.want = 1 ∧ s.g.base = 1 ∧ s.g.iter = 1 :=
  ⟨_, exec_reach (l := (0, .call (.run 1 false)) :: g 0 5 ++ g 1 5 ++ (1, .finish false) :: g 1 2 ++ (0, .call (.run 1 false)) :: g 0 4 ++ g 1 3) .start
    (fun _ _ _ _ => trivial) rfl, rfl, rfl, rfl, rfl, rfl, rfl⟩

/-- `O.run(1); O.pause(); O.run(1)`: the first thread, about to end, switches off the loop of the second, which makes no step -/
theorem C195_violated_paused : ∃ s, Reach Anything (init [0] 0) s ∧ s.pc 0 = .idle ∧ s.pc 1 = .done ∧ s.pc 2 = .done ∧ s.g.looping = false ∧
    s.g.want = 1 ∧ s.g.base = 1 ∧ s.g.iter = 1 :=
  ⟨_, exec_reach (l := (0, .call (.run 1 false)) :: g 0 5 ++ g 1 5 ++ (1, .finish false) :: g 1 2 ++ (0, .call .pause) :: g 0 7 ++
    (0, .call (.run 1 false)) :: g 0 3 ++ [(0, .go 2)] ++ g 0 1 ++ g 1 3 ++ g 2 4) .start
    (fun _ _ _ _ => trivial) rfl, rfl, rfl, rfl, rfl, rfl, rfl, rfl⟩

/-- `O.run(2, True)` from step 7, to its end: the script waits while the thread makes two steps -/
example : ∃ s, Reach (Serial false) (init [0] 7) s ∧ s.pc 0 = .idle ∧ s.g.want = 2 ∧ s.g.iter = 9 :=
  ⟨_, exec_reach (l := (0, .call (.run 2 true)) :: g 0 6 ++ g 1 5 ++ (1, .finish false) :: g 1 5 ++ (1, .finish false) :: g 0 2 ++ g 1 5 ++ g 0 4) .start
    (fun _ _ _ hm => by
      simp [g] at hm
      rcases hm with ⟨rfl, rfl⟩ | ⟨_, rfl⟩ | ⟨_, rfl⟩ | ⟨_, rfl⟩ | ⟨_, rfl⟩ | ⟨_, rfl⟩ | ⟨_, rfl⟩ | ⟨_, rfl⟩ | ⟨_, rfl⟩ <;>
        first | trivial | exact ⟨rfl, 2, by omega, rfl⟩ | exact fun h => by cases h) rfl, rfl, rfl, rfl⟩

/-! ## C196: `O.wait()` raises when the run has failed -/

/-- if `O.wait()` has found the run going on, it raises exactly when a step has thrown, that is when fewer steps than asked for were made.
Missing: a run that has failed before `O.wait()` looks -/
theorem C196_reported_partial {i : Nat} {s s' : St} {u : Nat} (h : Reach (Serial true) (init [0] i) s) (h0 : s.pc 0 = .cmd .waitRep none)
    (hs : step s 0 (.go u) = .ok s') : s'.g.raised = true ↔ s'.g.iter ≠ s'.g.base + s'.g.want := by
  obtain ⟨hI, _⟩ := serial_reach h
  have hsc := hI.script
  rw [h0] at hsc
  obtain ⟨_, h1, h2⟩ := hsc
  rcases step_cases hs with ⟨m, k, v, _, h', _, hn, e⟩ | ⟨m, k, v, _, h', _, e⟩ | ⟨lk, touch, f, v, _, h', _, _, ⟨_, e⟩ | ⟨p, hh, _⟩⟩ | ⟨k, c, _, h', _⟩ |
    ⟨f, k, sub, threw, _, h', e⟩ | ⟨f, k', k, c, _, h', _⟩ <;> rw [h0] at h' <;> simp only [code, codeC] at h' <;> cases h'
  · subst e
    rcases h2 with ⟨h2, h3⟩ | ⟨h2, h3⟩
    · simp [h3, h1, h2]
    · simp [h3]
      omega
  · cases hh

/-- in every case the script goes on only after all steps were made, or the failure was raised or is still on record in the runner -/
theorem C196_on_record_partial {i : Nat} {s : St} (h : Reach (Serial true) (init [0] i) s) (h0 : s.pc 0 = .idle) :
    (s.g.iter = s.g.base + s.g.want ∧ s.g.raised = false) ∨ (s.g.iter < s.g.base + s.g.want ∧ (s.g.raised = true ∨ s.g.threw = true)) := by
  obtain ⟨hI, _⟩ := serial_reach h
  have hsc := hI.script
  rw [h0] at hsc
  exact hsc.2

/-- `O.run(1, True)` returns normally although its only step has thrown: the thread had ended before `O.wait()` looked -/
theorem C196_violated : ∃ s, Reach (Serial true) (init [0] 0) s ∧ s.pc 0 = .idle ∧ s.g.want = 1 ∧ s.g.base = 0 ∧ s.g.iter = 0 ∧
    s.g.threw = true ∧ s.g.raised = false :=
  ⟨_, exec_reach (l := (0, .call (.run 1 true)) :: g 0 4 ++ g 1 5 ++ (1, .finish true) :: g 1 5 ++ g 0 2) .start
    (fun _ _ _ hm => by
      simp [g] at hm
      rcases hm with ⟨rfl, rfl⟩ | ⟨_, rfl⟩ | ⟨_, rfl⟩ | ⟨_, rfl⟩ | ⟨_, rfl⟩ | ⟨_, rfl⟩ <;>
        first | trivial | exact ⟨rfl, 1, by omega, rfl⟩ | exact fun _ => rfl) rfl, rfl, rfl, rfl, rfl, rfl, rfl⟩

/-- a run of one failing step seen by `O.wait()` -/
example : ∃ s, Reach (Serial true) (init [0] 0) s ∧ s.pc 0 = .cmd .waitRep none ∧ s.g.iter ≠ s.g.base + s.g.want :=
  ⟨_, exec_reach (l := (0, .call (.run 1 true)) :: g 0 6 ++ g 1 5 ++ (1, .finish true) :: g 1 5 ++ g 0 2) .start
    (fun _ _ _ hm => by
      simp [g] at hm
      rcases hm with ⟨rfl, rfl⟩ | ⟨_, rfl⟩ | ⟨_, rfl⟩ | ⟨_, rfl⟩ | ⟨_, rfl⟩ | ⟨_, rfl⟩ <;>
        first | trivial | exact ⟨rfl, 1, by omega, rfl⟩ | exact fun _ => rfl) rfl, rfl, by decide⟩

/-! ## C197: threads do not wait for each other for ever -/

/-- with `O.run`, `O.pause`, `O.wait`, `O.step` given by any scripts and any engines, at any time: from every thread that is not at its end,
following who waits for whose mutex, one arrives at a thread that can go on. Missing: `O.load`, `O.reset`, single actions -/
theorem C197_no_deadlock_partial {scripts : List Nat} {i : Nat} {s : St} (h : Reach Everyday (init scripts i) s) {t : Nat}
    (hu : s.pc t ≠ .unborn) (hd : s.pc t ≠ .done) : ∃ u, Relation.ReflTransGen (WaitsFor s) t u ∧ ∃ ch s', step s u ch = .ok s' := by
  have hP : Plain s ∧ Locked s := by
    clear hu hd
    induction h with
    | start => exact ⟨plain_init _ _, locked_init _ _⟩
    | next _ hp hs ih =>
      refine ⟨plain_step ih.1 hs fun c hc => ?_, locked_step ih.2 hs⟩
      rcases hp c hc with rfl | rfl | ⟨n, w, rfl, _⟩ | ⟨rfl, _⟩ <;> rfl
  exact progress hP.1 hP.2 hu hd

/-- such commands never end the program or touch what is freed -/
theorem C197_no_crash_partial {scripts : List Nat} {i : Nat} {s : St} (h : Reach Everyday (init scripts i) s) (t : Nat) (ch : Choice) :
    step s t ch ≠ .ub ∧ step s t ch ≠ .abort := by
  have hP : Plain s := by
    induction h with
    | start => exact plain_init _ _
    | next _ hp hs ih =>
      refine plain_step ih hs fun c hc => ?_
      rcases hp c hc with rfl | rfl | ⟨n, w, rfl, _⟩ | ⟨rfl, _⟩ <;> rfl
  have ha := hP.alive
  constructor
  · intro hs
    unfold step at hs
    split at hs
    next m k u hc => simp [ha] at hs; split_ifs at hs
    next m k u hc => simp [ha] at hs
    next lk touch f u hc =>
      simp only [ha] at hs
      simp at hs
      split_ifs at hs
      all_goals (split at hs <;> cases hs)
    next k c hc => split_ifs at hs
    next => cases hs
    next => cases hs
    next => cases hs
    next => cases hs
  · intro hs
    have hpl := hP.plain t
    unfold step at hs
    split at hs
    next m k u hc => simp [ha] at hs; split_ifs at hs
    next m k u hc => simp [ha] at hs
    next lk touch f u hc =>
      simp only [ha] at hs
      simp at hs
      split_ifs at hs
      all_goals (split at hs <;> cases hs)
    next k c hc => split_ifs at hs
    next => cases hs
    next => cases hs
    next hc =>
      cases hp : s.pc t <;> rw [hp] at hc hpl <;> simp [code, plain] at hc hpl
      rename_i c r
      cases c <;> simp [codeC] at hc
    next => cases hs

/-- what "for ever" means: once two threads wait for each other, or one for itself, they do so in every later state, whatever else happens -/
theorem C197_for_ever {P : St → Nat → Choice → Prop} {scripts : List Nat} {i : Nat} {s s' : St} {t u : Nat} (h : Reach Anything (init scripts i) s)
    (h1 : WaitsFor s t u) (h2 : WaitsFor s u t) (hr : Reach P s s') : WaitsFor s' t u ∧ WaitsFor s' u t :=
  ⟨(cycle_forever (locked_reach (locked_init _ _) h) h1 h2 hr).1, (cycle_forever (locked_reach (locked_init _ _) h) h1 h2 hr).2.1⟩

/-- `O.reset()` keeps the interpreter lock while it waits for the background thread, whose engine waits for the interpreter -/
theorem C197_violated_reset : ∃ s, Reach Anything (init [0] 0) s ∧ WaitsFor s 0 1 ∧ WaitsFor s 1 0 :=
  ⟨_, exec_reach (l := intoStep ++ (1, .call .pause) :: (0, .call .reset) :: g 0 6) .start (fun _ _ _ _ => trivial) rfl,
    Or.inl ⟨.runM, _, rfl, rfl⟩, Or.inl ⟨.gil, _, rfl, rfl⟩⟩

/-- an engine that calls `O.load` waits for its own step -/
theorem C197_violated_inside : ∃ s, Reach Anything (init [0] 0) s ∧ WaitsFor s 1 1 :=
  ⟨_, exec_reach (l := intoStep ++ (1, .call .load) :: g 1 7) .start (fun _ _ _ _ => trivial) rfl, Or.inl ⟨.runM, _, rfl, rfl⟩⟩

/-- `Omega::step()` during a run waits for the step with the flag's mutex locked, while an engine of that step calls `O.pause()` -/
theorem C197_violated_single : ∃ s, Reach Anything (init [0] 0) s ∧ WaitsFor s 0 1 ∧ WaitsFor s 1 0 :=
  ⟨_, exec_reach (l := intoStep ++ (0, .call .spawn) :: g 0 1 ++ (1, .call .pause) :: g 1 2) .start (fun _ _ _ _ => trivial) rfl,
    Or.inl ⟨.callM, _, rfl, rfl⟩, Or.inr ⟨_, _, rfl, rfl⟩⟩

/-- a thread that waits: a second run, started after a pause, waits for the first thread, which is inside its last step -/
example : ∃ s, Reach Everyday (init [0] 0) s ∧ WaitsFor s 2 1 :=
  ⟨_, exec_reach (l := intoStep ++ (0, .call .pause) :: g 0 7 ++ (0, .call (.run 3 false)) :: g 0 3 ++ [(0, .go 2)]) .start
    (fun _ _ _ hm c hc => by
      subst hc
      simp [intoStep, g] at hm
      rcases hm with ⟨_, rfl⟩ | ⟨_, rfl⟩ | ⟨_, rfl⟩
      · exact Or.inr (Or.inr (Or.inl ⟨_, _, rfl, fun h => by cases h⟩))
      · exact Or.inl rfl
      · exact Or.inr (Or.inr (Or.inl ⟨_, _, rfl, fun h => by cases h⟩))) rfl, Or.inl ⟨.runM, _, rfl, rfl⟩⟩

/-! ## C198: the runner is not used after it is freed -/

/-- one script, any commands but single actions, engines give none: if `O.load` and `O.reset` are given only when every started thread has
locked the mutex of the loop, nothing freed is touched; when the runner is freed no background thread is left -/
theorem C198_freed_last_partial {i : Nat} {s : St} (h : Reach Tidy (init [0] i) s) :
    (∀ t ch, step s t ch ≠ .ub) ∧ (s.g.alive = false → ∀ t, t ≠ 0 → s.pc t = .unborn ∨ s.pc t = .done) :=
  ⟨fun t ch => tidy_safe (tidy_reach h).1 t ch, fun hd => ((tidy_reach h).1.dead hd).2⟩

/-- `O.run(5); O.reset()` at once: the runner is freed before the new thread has locked its mutex; the thread then uses it -/
theorem C198_violated : ∃ s, Reach Anything (init [0] 0) s ∧ step s 1 (.go 0) = .ub :=
  ⟨_, exec_reach (l := (0, .call (.run 5 false)) :: g 0 5 ++ (0, .call .reset) :: g 0 11) .start (fun _ _ _ _ => trivial) rfl, rfl⟩

/-- `O.load` during a run, to the end: the step is finished, the thread ends, the runner is freed -/
example : ∃ s, exec (init [0] 0) (intoStep ++ (0, .call .load) :: g 0 7 ++ (1, .finish false) :: g 1 4 ++ g 0 7) = .ok s ∧ s.g.alive = false ∧
    s.g.iter = 1 ∧ s.pc 0 = .idle ∧ s.pc 1 = .done :=
  ⟨_, rfl, rfl, rfl, rfl, rfl⟩

/-! ## C199: `O.wait()` returns only between steps -/

/-- without `O.pause`, `O.load`, `O.reset`: when `O.wait()` stops waiting no background step is being executed -/
theorem C199_between_steps_partial {scripts : List Nat} {i : Nat} {s s' : St} {t : Nat} {ch : Choice} {r : Option Bool}
    (h : Reach NoPause (init scripts i) s) (hs : step s t ch = .ok s')
    (hw : (s.pc t = .cmd .waitTest r ∧ s'.pc t = .cmd .finish r) ∨ (s.pc t = .cmd .waitLoop r ∧ s'.pc t = .cmd .waitBack r)) (u : Nat) :
    ¬ InBackground (s.pc u) := by
  have hC := calm_reach (fun _ _ _ hp => noPause_calm hp) (locked_init _ _) (calm_init _ _) h
  have hl : s.g.looping = false := by
    by_contra hl
    have hl' : s.g.looping = true := by simpa using hl
    rcases hw with ⟨h0, h1⟩ | ⟨h0, h1⟩
    all_goals
      rcases step_cases hs with ⟨m, k, v, _, h', _, hn, e⟩ | ⟨m, k, v, _, h', _, e⟩ | ⟨lk, touch, f, v, _, h', _, _, ⟨_, e⟩ | ⟨p, hh, _⟩⟩ | ⟨k, c, _, h', _⟩ |
        ⟨f, k, sub, threw, _, h', e⟩ | ⟨f, k', k, c, _, h', _⟩ <;> rw [h0] at h' <;> simp only [code, codeC] at h' <;> cases h'
      · subst e
        simp [hl'] at h1
      · cases hh
  intro hb
  have := hC.off hl u
  obtain ⟨l, hb | ⟨c, hb⟩⟩ := hb <;> rw [hb] at this <;> cases this

/-- `O.run(5); O.pause(); O.wait()` returns while the background thread is inside a step -/
theorem C199_violated : ∃ s, Reach Anything (init [0] 0) s ∧ s.pc 0 = .cmd .finish none ∧ InBackground (s.pc 1) ∧
    ∃ s', step s 0 (.go 0) = .ok s' ∧ s'.pc 0 = .idle :=
  ⟨_, exec_reach (l := intoStep ++ (0, .call .pause) :: g 0 7 ++ (0, .call .wait) :: g 0 2) .start (fun _ _ _ _ => trivial) rfl, rfl,
    ⟨true, Or.inl rfl⟩, _, rfl, rfl⟩

/-- `O.wait()` about to stop waiting after a run of one step -/
example : ∃ s s', Reach NoPause (init [0] 0) s ∧ step s 0 (.go 0) = .ok s' ∧ s.pc 0 = .cmd .waitLoop none ∧ s'.pc 0 = .cmd .waitBack none ∧ s.g.iter = 1 :=
  ⟨_, _, exec_reach (l := (0, .call (.run 1 true)) :: g 0 6 ++ g 1 5 ++ (1, .finish false) :: g 1 4) .start (fun _ _ _ hm c hc => by
    subst hc
    simp [g] at hm
    obtain ⟨_, rfl⟩ := hm
    exact Or.inr (Or.inr ⟨_, _, rfl⟩)) rfl, rfl, rfl, rfl, rfl⟩

end Verif.Run
