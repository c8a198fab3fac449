import Verif.Run.Lemmas
import Mathlib.Tactic.Linarith

/-! # No thread waits for ever for a mutex, as long as the runner is not given up and no single actions are spawned -/
namespace Verif.Run

/-- commands given -/
def Cmd.plain : Cmd → Bool
  | .run _ _ | .pause | .wait | .step => true
  | _ => false

/-- places reached with these commands -/
def plainC : CPc → Bool
  | .begin c => c.plain
  | .runSet _ _ | .runTest _ | .runLock _ | .waitTest | .waitOut | .waitLoop | .waitBack | .waitRep | .stepTest | .stepAct | .finish => true
  | .pauseOut | .pauseTest | .pauseRead | .pauseLock | .back => true
  | _ => false

/-- places reached with these commands -/
def plain : Pc → Bool
  | .lockCall l | .setTerm l | .act l | .fin l _ => l
  | .cmd c r => plainC c && (r != some false)
  | .crash => false
  | _ => true

structure Plain (s : St) : Prop where
  plain : ∀ t, plain (s.pc t) = true
  alive : s.g.alive = true
  room : ∃ N, ∀ t, N ≤ t → s.pc t = .unborn

theorem plain_init (scripts : List Nat) (i : Nat) : Plain (init scripts i) := by
  refine ⟨fun t => ?_, rfl, ?_⟩
  · simp only [init]
    split_ifs <;> rfl
  · refine ⟨scripts.sum + 1, fun t ht => ?_⟩
    simp only [init]
    rw [if_neg]
    intro hm
    have : t ≤ scripts.sum := by
      clear ht
      induction scripts with
      | nil => cases hm
      | cons a l ih =>
        rw [List.sum_cons]
        rcases List.mem_cons.1 hm with h | h
        · omega
        · have := ih h
          omega
    omega

/-- what the instruction at a place leads to -/
def Next (q : Pc → Prop) (ok : Cmd → Prop) (al : Bool → Bool → Prop) : Instr → Prop
  | .acq _ k => q k
  | .rel _ k => q k
  | .op _ _ f => ∀ g, q (f g).2.1 ∧ al g.alive (f g).1.alive ∧ ∀ p, (f g).2.2 = some p → q p
  | .pick k => ∀ c, ok c → q (k c)
  | .action f k sub => (∀ b g, q (k b) ∧ al g.alive (f b g).alive) ∧ ∀ k', sub = some k' → ∀ c, ok c → q (k' c)
  | .halt => True
  | .abort => True

theorem plain_next (p : Pc) (hp : plain p = true) : Next (fun k => plain k = true) (fun c => c.plain = true) (fun a b => b = a) (code p) := by
  cases p
  case cmd c r =>
    have hr : r = none ∨ r = some true := by
      rcases r with _ | l
      · exact Or.inl rfl
      · cases l
        · simp [plain] at hp
        · exact Or.inr rfl
    rcases hr with rfl | rfl
    all_goals
      cases c <;> (try (simp [plain, plainC] at hp; done))
      case begin c =>
        cases c <;> simp_all [plain, plainC, code, codeC, Next, first, Cmd.plain]
      all_goals (try (simp [code, codeC, Next, plain, plainC, ret, bareStep] <;> done))
      all_goals
        simp only [code, codeC, Next]
      all_goals
        (rintro ⟨lo, te, th, al, it, sa, ba, wa, ra⟩
         first
          | (rename_i w
             cases lo <;> cases w <;> simp [plain, plainC, afterRun] <;> done)
          | (cases lo <;> cases th <;> simp [plain, plainC, afterRun] <;> done))
  case idle =>
    intro c hc
    cases c <;> simp_all [entry, plain, plainC, Cmd.plain]
  case act l =>
    refine ⟨fun b g => ⟨hp, ?_⟩, fun k' hk c hc => ?_⟩
    · cases b <;> rfl
    · cases hk
      have hl : l = true := hp
      subst hl
      cases c <;> simp_all [entry, plain, plainC, Cmd.plain]
  case fin l th =>
    have hl : l = true := hp
    subst hl
    cases th <;> rfl
  all_goals simp_all [code, Next, plain]
  all_goals
    (intro g
     split_ifs <;> rfl)

theorem plain_step {s s' : St} {t : Nat} {ch : Choice} (h : Plain s) (hs : step s t ch = .ok s')
    (hch : ∀ c, ch = .call c → c.plain = true) : Plain s' := by
  have hn := plain_next (s.pc t) (h.plain t)
  obtain ⟨N, hN⟩ := h.room
  have mv : ∀ (pc : Nat → Pc) (v : Nat) (k : Pc), (∀ t, plain (pc t) = true) → plain k = true → ∀ t, plain (Function.update pc v k t) = true := by
    intro pc v k hpc hk u
    by_cases hu : u = v
    · rw [hu, Function.update_self]
      exact hk
    · rw [Function.update_of_ne hu]
      exact hpc u
  have rm : ∀ (pc : Nat → Pc) (v : Nat) (k : Pc), (∃ N, ∀ t, N ≤ t → pc t = .unborn) → ∃ N, ∀ t, N ≤ t → Function.update pc v k t = .unborn := by
    rintro pc v k ⟨M, hM⟩
    refine ⟨max M (v + 1), fun u hu => ?_⟩
    have h1 : u ≠ v := by
      have := le_trans (le_max_right M (v + 1)) hu
      omega
    rw [Function.update_of_ne h1]
    exact hM u (le_trans (le_max_left _ _) hu)
  rcases step_cases hs with ⟨m, k, v, _, hc, _, _, rfl⟩ | ⟨m, k, v, _, hc, _, rfl⟩ | ⟨lk, touch, f, v, _, hc, _, _, ⟨_, rfl⟩ | ⟨p, hp, hv, _, rfl⟩⟩ |
    ⟨k, c, e, hc, _, rfl⟩ | ⟨f, k, sub, threw, _, hc, rfl⟩ | ⟨f, k', k, c, e, hc, rfl⟩ <;> rw [hc] at hn
  · exact ⟨mv _ _ _ h.plain hn, h.alive, rm _ _ _ ⟨N, hN⟩⟩
  · exact ⟨mv _ _ _ h.plain hn, h.alive, rm _ _ _ ⟨N, hN⟩⟩
  · exact ⟨mv _ _ _ h.plain (hn s.g).1, (hn s.g).2.1.trans h.alive, rm _ _ _ ⟨N, hN⟩⟩
  · exact ⟨mv _ _ _ (mv _ _ _ h.plain (hn s.g).1) ((hn s.g).2.2 p hp), (hn s.g).2.1.trans h.alive, rm _ _ _ (rm _ _ _ ⟨N, hN⟩)⟩
  · exact ⟨mv _ _ _ h.plain (hn c (hch c e)), h.alive, rm _ _ _ ⟨N, hN⟩⟩
  · exact ⟨mv _ _ _ h.plain (hn.1 threw s.g).1, (hn.1 threw s.g).2.trans h.alive, rm _ _ _ ⟨N, hN⟩⟩
  · exact ⟨mv _ _ _ h.plain (hn.2 k rfl c (hch c e)), h.alive, rm _ _ _ ⟨N, hN⟩⟩

/-- thread `t` can execute an instruction -/
def CanStep (s : St) (t : Nat) : Prop := ∃ ch s', step s t ch = .ok s'

theorem no_bool {s : St} (h : Plain s) (hl : Locked s) : s.own .boolM = none := by
  cases ho : s.own .boolM with
  | none => rfl
  | some t =>
    have h1 := (hl.own .boolM t).1 ho
    have h2 := h.plain t
    cases hp : s.pc t <;> rw [hp] at h1 h2 <;> simp [holds] at h1
    rename_i c r
    cases c <;> simp_all [CPc.inBool, plain, plainC]

/-- a thread that is at work and does not need a mutex can go on -/
theorem can_step {s : St} {t : Nat} (h : Plain s) (hl : Locked s) (hu : s.pc t ≠ .unborn) (hd : s.pc t ≠ .done)
    (hq : ∀ m k, code (s.pc t) = .acq m k → s.own m = none) : CanStep s t := by
  have hb := no_bool h hl
  obtain ⟨N, hN⟩ := h.room
  cases hc : code (s.pc t) with
  | acq m k =>
    refine ⟨.go 0, { s with own := Function.update s.own m (some t), pc := Function.update s.pc t k }, ?_⟩
    simp [step, hc, h.alive, hq m k hc]
  | rel m k =>
    refine ⟨.go 0, { s with own := Function.update s.own m none, pc := Function.update s.pc t k }, ?_⟩
    simp [step, hc, h.alive]
  | op lk touch f =>
    cases hf : (f s.g).2.2 with
    | none =>
      refine ⟨.go 0, { s with g := (f s.g).1, pc := Function.update s.pc t (f s.g).2.1 }, ?_⟩
      simp [step, hc, h.alive, hb, hf]
    | some p =>
      refine ⟨.go N, { s with g := (f s.g).1, pc := Function.update (Function.update s.pc t (f s.g).2.1) N p }, ?_⟩
      simp [step, hc, h.alive, hb, hf, hN N le_rfl]
  | pick k =>
    refine ⟨.call .pause, { s with pc := Function.update s.pc t (k .pause) }, ?_⟩
    simp [step, hc, h.alive]
  | action f k sub =>
    refine ⟨.finish false, { s with g := f false s.g, pc := Function.update s.pc t (k false) }, ?_⟩
    simp [step, hc]
  | halt =>
    exfalso
    cases hp : s.pc t <;> rw [hp] at hc hu hd <;> simp [code] at hc hu hd
    rename_i c r
    cases c <;> simp [codeC] at hc
  | abort =>
    exfalso
    have := h.plain t
    cases hp : s.pc t <;> rw [hp] at hc this <;> simp [code, plain] at hc this
    rename_i c r
    cases c <;> simp [codeC] at hc

/-- who holds the interpreter lock does not need another mutex -/
theorem gil_free {p : Pc} (h : plain p = true) (hg : holds .gil p = true) (m : Mx) (k : Pc) : code p ≠ .acq m k := by
  cases p <;> simp [holds] at hg
  rename_i c r
  cases c <;> simp_all [code, codeC, CPc.out, plain, plainC]

/-- who holds the mutex of the steps needs at most the interpreter lock -/
theorem call_free {p : Pc} (h : plain p = true) (hg : holds .callM p = true) {m : Mx} {k : Pc} (hc : code p = .acq m k) : m = .gil := by
  cases p <;> simp [holds, holdsCall] at hg <;> simp [code] at hc
  rename_i c r
  cases c <;> simp_all [codeC, plain, plainC, CPc.inCall]

/-- who holds the mutex of the loop needs at most the mutex of the steps or the interpreter lock -/
theorem run_free {p : Pc} (h : plain p = true) (hg : holds .runM p = true) {m : Mx} {k : Pc} (hc : code p = .acq m k) :
    m = .gil ∨ m = .callM := by
  cases p <;> simp [holds, holdsRun] at hg <;> simp [code] at hc
  · exact Or.inr hc.1.symm
  rename_i c r
  cases c <;> simp_all [codeC, plain, plainC, CPc.inRun]

theorem holder_works {m : Mx} {p : Pc} (h : holds m p = true) : p ≠ .unborn ∧ p ≠ .done := by
  constructor <;> rintro rfl <;> cases m <;> cases h

/-- from every thread at work, following the mutexes it waits for, one finds a thread that can go on -/
theorem progress {s : St} (h : Plain s) (hl : Locked s) {t : Nat} (hu : s.pc t ≠ .unborn) (hd : s.pc t ≠ .done) :
    ∃ u, Relation.ReflTransGen (WaitsFor s) t u ∧ CanStep s u := by
  -- threads holding the interpreter lock, the mutex of the steps, the mutex of the loop
  have g1 : ∀ u, s.own .gil = some u → CanStep s u := by
    intro u ho
    have hh := (hl.own .gil u).1 ho
    exact can_step h hl (holder_works hh).1 (holder_works hh).2 fun m k hc => absurd hc (gil_free (h.plain u) hh m k)
  have one : ∀ u, s.pc u ≠ .unborn → s.pc u ≠ .done → (∀ m k, code (s.pc u) = .acq m k → m = .gil) →
      ∃ v, Relation.ReflTransGen (WaitsFor s) u v ∧ CanStep s v := by
    intro u h1 h2 h3
    by_cases hq : ∀ m k, code (s.pc u) = .acq m k → s.own m = none
    · exact ⟨u, .refl, can_step h hl h1 h2 hq⟩
    · push Not at hq
      obtain ⟨m, k, hc, ho⟩ := hq
      obtain rfl := h3 m k hc
      obtain ⟨v, hv⟩ := Option.ne_none_iff_exists'.1 ho
      exact ⟨v, .single (Or.inl ⟨_, k, hc, hv⟩), g1 v hv⟩
  have g2 : ∀ u, s.own .callM = some u → ∃ v, Relation.ReflTransGen (WaitsFor s) u v ∧ CanStep s v := by
    intro u ho
    have hh := (hl.own .callM u).1 ho
    exact one u (holder_works hh).1 (holder_works hh).2 fun m k hc => call_free (h.plain u) hh hc
  have two : ∀ u, s.pc u ≠ .unborn → s.pc u ≠ .done → (∀ m k, code (s.pc u) = .acq m k → m = .gil ∨ m = .callM) →
      ∃ v, Relation.ReflTransGen (WaitsFor s) u v ∧ CanStep s v := by
    intro u h1 h2 h3
    by_cases hq : ∀ m k, code (s.pc u) = .acq m k → s.own m = none
    · exact ⟨u, .refl, can_step h hl h1 h2 hq⟩
    · push Not at hq
      obtain ⟨m, k, hc, ho⟩ := hq
      obtain ⟨v, hv⟩ := Option.ne_none_iff_exists'.1 ho
      rcases h3 m k hc with rfl | rfl
      · exact ⟨v, .single (Or.inl ⟨_, k, hc, hv⟩), g1 v hv⟩
      · obtain ⟨w, hw, hs⟩ := g2 v hv
        exact ⟨w, .head (Or.inl ⟨_, k, hc, hv⟩) hw, hs⟩
  have g3 : ∀ u, s.own .runM = some u → ∃ v, Relation.ReflTransGen (WaitsFor s) u v ∧ CanStep s v := by
    intro u ho
    have hh := (hl.own .runM u).1 ho
    exact two u (holder_works hh).1 (holder_works hh).2 fun m k hc => run_free (h.plain u) hh hc
  by_cases hq : ∀ m k, code (s.pc t) = .acq m k → s.own m = none
  · exact ⟨t, .refl, can_step h hl hu hd hq⟩
  · push Not at hq
    obtain ⟨m, k, hc, ho⟩ := hq
    obtain ⟨v, hv⟩ := Option.ne_none_iff_exists'.1 ho
    have hw : WaitsFor s t v := Or.inl ⟨m, k, hc, hv⟩
    cases m
    · rw [no_bool h hl] at hv
      cases hv
    · obtain ⟨w, h1, h2⟩ := g2 v hv
      exact ⟨w, .head hw h1, h2⟩
    · obtain ⟨w, h1, h2⟩ := g3 v hv
      exact ⟨w, .head hw h1, h2⟩
    · exact ⟨v, .single hw, g1 v hv⟩

end Verif.Run
