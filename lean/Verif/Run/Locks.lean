import Verif.Run.Model
import Mathlib.Tactic.SplitIfs
import Mathlib.Tactic.ByContra

/-! # The mutexes are held exactly where the code holds them -/
namespace Verif.Run

/-- commands between whose ends the interpreter lock is not held -/
def CPc.out : CPc → Bool
  | .begin _ | .pauseTest | .pauseRead | .pauseLock | .back | .waitLoop | .waitBack => true
  | .spawnBool | .spawnCall | .spawnDo | .spawnRel1 | .spawnRel2 => true
  | .stopTest k | .stopRd k | .stopLk k | .dRead k | .dLock k | .dTerm k | .dRun k | .dCall k | .dFree k | .dFree2 k | .dGone k => !k
  | _ => false

/-- commands inside which `m_boolmutex` is held -/
def CPc.inBool : CPc → Bool
  | .spawnCall | .spawnDo | .spawnRel1 | .spawnRel2 => true
  | _ => false

/-- commands inside which `m_callmutex` is held -/
def CPc.inCall : CPc → Bool
  | .spawnDo | .spawnRel1 | .dFree _ => true
  | _ => false

/-- commands inside which `m_runmutex` is held -/
def CPc.inRun : CPc → Bool
  | .dCall _ | .dFree _ | .dFree2 _ => true
  | _ => false

/-- places where `m_callmutex` is held -/
def holdsCall : Pc → Bool
  | .setTerm _ | .act _ | .fin _ _ => true
  | .cmd c r => r.isSome || c.inCall
  | _ => false

/-- places where `m_runmutex` is held -/
def holdsRun : Pc → Bool
  | .clear | .test | .ask | .caught | .stopRead | .stopLock | .leave => true
  | .lockCall l | .setTerm l | .act l | .fin l _ => l
  | .cmd c r => (r == some true) || c.inRun
  | _ => false

/-- which mutexes a thread holds at each place -/
def holds (m : Mx) (p : Pc) : Bool :=
  match m with
  | .boolM => match p with
    | .cmd c _ => c.inBool
    | _ => false
  | .callM => holdsCall p
  | .runM => holdsRun p
  | .gil => match p with
    | .cmd c _ => !c.out
    | _ => false

/-- places never reached, because a thread would have to lock a mutex it holds -/
def never : Pc → Bool
  | .cmd (.begin .spawn) _ => true
  | .cmd .spawnDo (some _) | .cmd .spawnRel1 (some _) | .cmd .spawnRel2 (some _) => true
  | .cmd (.dCall _) (some true) => true
  | .cmd (.dFree _) (some _) | .cmd (.dFree2 _) (some _) | .cmd (.dGone _) (some _) => true
  | _ => false

/-- what the instruction at a place does to the mutexes agrees with `holds` -/
def Fits (p : Pc) : Instr → Prop
  | .acq m k => holds m p = false → holds m k = true ∧ (∀ m', m' ≠ m → holds m' k = holds m' p) ∧ never k = false
  | .rel m k => holds m p = true ∧ holds m k = false ∧ (∀ m', m' ≠ m → holds m' k = holds m' p) ∧ never k = false
  | .op _ _ f => ∀ g, (∀ m, holds m (f g).2.1 = holds m p) ∧ never (f g).2.1 = false ∧
      ∀ q, (f g).2.2 = some q → (∀ m, holds m q = false) ∧ never q = false
  | .pick k => ∀ c, (∀ m, holds m (k c) = holds m p) ∧ never (k c) = false
  | .action _ k sub => (∀ b, (∀ m, holds m (k b) = holds m p) ∧ never (k b) = false) ∧
      ∀ k', sub = some k' → ∀ c, (∀ m, holds m (k' c) = holds m p) ∧ never (k' c) = false
  | .halt => True
  | .abort => True

theorem forall_mx {P : Mx → Prop} : (∀ m, P m) ↔ P .boolM ∧ P .callM ∧ P .runM ∧ P .gil :=
  ⟨fun h => ⟨h _, h _, h _, h _⟩, fun ⟨a, b, c, d⟩ m => by cases m <;> assumption⟩

theorem fits_op (p : Pc) (lk touch : Bool) (f : Glob → Glob × Pc × Option Pc)
    (h : ∀ lo te th al it sa ba wa ra, (∀ m, holds m (f ⟨lo, te, th, al, it, sa, ba, wa, ra⟩).2.1 = holds m p) ∧
      never (f ⟨lo, te, th, al, it, sa, ba, wa, ra⟩).2.1 = false ∧
      ∀ q, (f ⟨lo, te, th, al, it, sa, ba, wa, ra⟩).2.2 = some q → (∀ m, holds m q = false) ∧ never q = false) : Fits p (.op lk touch f) :=
  fun ⟨lo, te, th, al, it, sa, ba, wa, ra⟩ => h lo te th al it sa ba wa ra

set_option maxHeartbeats 2000000 in
theorem fits_cmd (c : CPc) (r : Option Bool) (hp : never (.cmd c r) = false) : Fits (.cmd c r) (codeC r c) := by
  rcases r with _ | l
  case' some => cases l
  all_goals
    cases c
    all_goals (try (rename_i k; cases k))
    all_goals first
      | (refine fits_op _ _ _ _ fun lo te th al it sa ba wa ra => ?_
         cases lo <;> cases th <;> simp [forall_mx, holds, never, CPc.out, CPc.inBool, CPc.inCall, CPc.inRun, holdsCall, holdsRun, afterRun, ret] at hp ⊢ <;> done)
      | (rename_i w
         refine fits_op _ _ _ _ fun lo te th al it sa ba wa ra => ?_
         cases lo <;> cases w <;> simp [forall_mx, holds, never, CPc.out, CPc.inBool, CPc.inCall, CPc.inRun, holdsCall, holdsRun, afterRun, ret] at hp ⊢ <;> done)
      | (simp [Fits, codeC, forall_mx, holds, never, CPc.out, CPc.inBool, CPc.inCall, CPc.inRun, holdsCall, holdsRun, first, ret] at hp ⊢ <;> done)

theorem fits (p : Pc) (hp : never p = false) : Fits p (code p) := by
  rcases p with _ | _ | _ | _ | _ | _ | _ | l | l | l | ⟨l, th⟩ | _ | _ | _ | _ | _ | ⟨c, r⟩
  case cmd => exact fits_cmd c r hp
  all_goals (try cases l)
  all_goals (try cases th)
  all_goals first
    | (refine fits_op _ _ _ _ fun lo te th al it sa ba wa ra => ?_
       cases lo <;> cases te <;> simp [forall_mx, holds, never, holdsCall, holdsRun] <;> done)
    | (simp [Fits, code, forall_mx, holds, never, holdsCall, holdsRun] <;> done)
    | (simp only [Fits, code]
       refine ⟨fun b => ?_, fun k' hk c => ?_⟩
       · simp [forall_mx, holds, never, holdsCall, holdsRun]
       · cases hk
         cases c <;> simp [entry, forall_mx, holds, never, CPc.out, CPc.inBool, CPc.inCall, CPc.inRun, holdsCall, holdsRun])
    | (simp only [Fits, code]
       intro c
       cases c <;> simp [entry, forall_mx, holds, never, CPc.out, CPc.inBool, CPc.inCall, CPc.inRun, holdsCall, holdsRun])

/-- each mutex is held by exactly the thread that is at a place where the code holds it -/
structure Locked (s : St) : Prop where
  own : ∀ m t, s.own m = some t ↔ holds m (s.pc t) = true
  never : ∀ t, never (s.pc t) = false

theorem locked_init (scripts : List Nat) (i : Nat) : Locked (init scripts i) := by
  constructor
  · intro m t
    simp only [init]
    split_ifs <;> cases m <;> simp [holds, holdsCall, holdsRun]
  · intro t
    simp only [init]
    split_ifs <;> rfl

theorem locked_move {own : Mx → Option Nat} {pc : Nat → Pc} {t : Nat} {k : Pc}
    (h : ∀ m u, own m = some u ↔ holds m (pc u) = true) (hk : ∀ m, holds m k = holds m (pc t)) :
    ∀ m u, own m = some u ↔ holds m (Function.update pc t k u) = true := by
  intro m u
  by_cases hu : u = t
  · subst hu
    rw [Function.update_self, hk]
    exact h m u
  · rw [Function.update_of_ne hu]
    exact h m u

theorem never_move {pc : Nat → Pc} {t : Nat} {k : Pc} (h : ∀ u, never (pc u) = false) (hk : never k = false) :
    ∀ u, never (Function.update pc t k u) = false := by
  intro u
  by_cases hu : u = t
  · subst hu
    rw [Function.update_self]
    exact hk
  · rw [Function.update_of_ne hu]
    exact h u

/-- every instruction keeps the mutexes in agreement with the places of the threads -/
theorem locked_step {s s' : St} {t : Nat} {ch : Choice} (h : Locked s) (hs : step s t ch = .ok s') : Locked s' := by
  have hf := fits (s.pc t) (h.never t)
  unfold step at hs
  split at hs
  next m k u hc =>
    rw [hc] at hf
    split_ifs at hs with h1 h2
    obtain rfl := Out.ok.inj hs
    have hm : holds m (s.pc t) = false := by
      by_contra hh
      rw [(h.own m t).2 (by simpa using hh)] at h2
      exact absurd h2 (by simp)
    obtain ⟨a, b, c⟩ := hf hm
    refine ⟨fun m' u' => ?_, never_move h.never c⟩
    dsimp only
    by_cases hm' : m' = m
    · subst hm'
      rw [Function.update_self]
      by_cases hu : u' = t
      · subst hu
        simp [a]
      · rw [Function.update_of_ne hu, ← h.own, h2]
        simp [Ne.symm hu]
    · rw [Function.update_of_ne hm']
      by_cases hu : u' = t
      · subst hu
        rw [Function.update_self, b m' hm']
        exact h.own m' u'
      · rw [Function.update_of_ne hu]
        exact h.own m' u'
  next m k u hc =>
    rw [hc] at hf
    split_ifs at hs with h1
    obtain rfl := Out.ok.inj hs
    obtain ⟨a, a', b, c⟩ := hf
    refine ⟨fun m' u' => ?_, never_move h.never c⟩
    dsimp only
    by_cases hm' : m' = m
    · subst hm'
      rw [Function.update_self]
      by_cases hu : u' = t
      · subst hu
        simp [a']
      · rw [Function.update_of_ne hu, ← h.own, (h.own m' t).2 a]
        simp [Ne.symm hu]
    · rw [Function.update_of_ne hm']
      by_cases hu : u' = t
      · subst hu
        rw [Function.update_self, b m' hm']
        exact h.own m' u'
      · rw [Function.update_of_ne hu]
        exact h.own m' u'
  next lk touch f u hc =>
    rw [hc] at hf
    obtain ⟨a, b, c⟩ := hf s.g
    by_cases h1 : touch = true ∧ s.g.alive = false
    · rw [if_pos h1] at hs
      cases hs
    rw [if_neg h1] at hs
    by_cases h2 : lk = true ∧ s.own .boolM ≠ none
    · rw [if_pos h2] at hs
      cases hs
    rw [if_neg h2] at hs
    split at hs
    next hq =>
      obtain rfl := Out.ok.inj hs
      exact ⟨locked_move h.own a, never_move h.never b⟩
    next q hq =>
      split_ifs at hs with h3
      obtain rfl := Out.ok.inj hs
      obtain ⟨d, e⟩ := c q hq
      refine ⟨locked_move (locked_move h.own a) fun m => ?_, never_move (never_move h.never b) e⟩
      by_cases hu : u = t
      · subst hu
        rw [Function.update_self, d, a, h3]
        cases m <;> rfl
      · rw [Function.update_of_ne hu, d, h3]
        cases m <;> rfl
  next k c hc =>
    rw [hc] at hf
    split_ifs at hs
    obtain rfl := Out.ok.inj hs
    exact ⟨locked_move h.own (hf c).1, never_move h.never (hf c).2⟩
  next f k sub threw hc =>
    rw [hc] at hf
    obtain rfl := Out.ok.inj hs
    exact ⟨locked_move h.own (hf.1 threw).1, never_move h.never (hf.1 threw).2⟩
  next f k' k c hc =>
    rw [hc] at hf
    obtain rfl := Out.ok.inj hs
    exact ⟨locked_move h.own (hf.2 k rfl c).1, never_move h.never (hf.2 k rfl c).2⟩
  next => cases hs
  next => cases hs

theorem locked_reach {P : St → Nat → Choice → Prop} {s0 s : St} (h0 : Locked s0) (h : Reach P s0 s) : Locked s := by
  induction h with
  | start => exact h0
  | next _ _ hs ih => exact locked_step ih hs

end Verif.Run
