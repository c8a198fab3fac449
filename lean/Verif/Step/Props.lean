import Mathlib.Algebra.Order.Group.Defs
import Mathlib.Algebra.Order.Group.Int
import Mathlib.Algebra.Order.Monoid.Unbundled.Pow
import Verif.Step.Reach
/-!
# C16–C19: properties of the time step

Specification vocabulary: a step with engine list `es` consists of the events `stepEvs es`
(prologue, a turn of each engine in order, epilogue); `Sc.log` records the completed events; `evG` says
what an event does to the world, the iteration number and the time.
-/
namespace Verif.Step
open Verif

variable {E W T : Type}

/-- `q` complete steps followed by the first `r` events of one more -/
def cyc (es : List E) (q r : Nat) : List (Ev E) := (List.replicate q (stepEvs es)).flatten ++ (stepEvs es).take r

/-- a user program: before each call of `O.step()` the user sets `O.subStepping` -/
def toggled [Add T] (B : Beh E W T) : Sc E W T → List Bool → Option (Sc E W T)
  | s, [] => some s
  | s, b :: bs => match move B (setSub s b) with
    | .ok s' => toggled B s' bs
    | .raised _ => none

theorem cyc_chunk (es : List E) (q r : Nat) (b : Bool) (h : r ≤ es.length + 1) :
    cyc es q r ++ chunk es r b = if b = true ∧ r ≤ es.length then cyc es q (r+1) else cyc es (q+1) 0 := by
  have hl := stepEvs_length es
  have full : cyc es (q+1) 0 = (List.replicate q (stepEvs es)).flatten ++ stepEvs es := by
    simp [cyc, List.replicate_succ']
  cases b with
  | true =>
    have h1 : (stepEvs es).take r ++ ((stepEvs es).drop r).take 1 = (stepEvs es).take (r+1) := by
      rw [List.take_add]
    by_cases hr : r ≤ es.length
    · simp [hr, chunk, cyc, h1]
    · have : (stepEvs es).take (r+1) = stepEvs es := List.take_of_length_le (by omega)
      simp only [hr, and_false, if_false]
      rw [full, cyc, List.append_assoc]
      simp [chunk, h1, this]
  | false =>
    simp only [Bool.false_eq_true, false_and, if_false]
    rw [full, cyc, List.append_assoc]
    simp [chunk]

theorem toggled_aux [Add T] (B : Beh E W T) (hB : NoRaise B) (hA : NoAssign B) (es : List E) (s0 : Sc E W T)
    (bs : List Bool) : ∀ (s : Sc E W T) (q r : Nat), At s r → s.next = [] → s.engines = es →
    Did B s0 s (cyc es q r) →
    ∃ s' q' r', toggled B s bs = some s' ∧ At s' r' ∧ s'.next = [] ∧ s'.engines = es ∧ Did B s0 s' (cyc es q' r') := by
  induction bs with
  | nil => intro s q r h1 h2 h3 h4; exact ⟨s, q, r, rfl, h1, h2, h3, h4⟩
  | cons b bs ih =>
    intro s q r h1 h2 h3 h4
    have hn : (setSub s b).next = [] := h2
    have hat : At (adopt (setSub s b)) r := by rw [adopt_nil hn]; exact h1
    obtain ⟨s', a, d, e⟩ := move_ok B hB (setSub s b) r hat
    rw [adopt_nil hn] at d e
    have d' : Did B s s' (chunk es r b) := by
      have := d
      refine ⟨?_, this.log.trans ?_, this.engines⟩
      · rw [this.view]; subst h3; rfl
      · subst h3; rfl
    have hnext : s'.next = [] := by
      have hn' : ∀ (evs : List (Ev E)) (g : G E W T), (evs.foldl (evG B) g).next = g.next := by
        intro evs
        induction evs with
        | nil => intro g; rfl
        | cons x xs ihx => intro g; rw [List.foldl_cons, ihx]; cases x <;> simp [evG, hA _ _]
      have := congrArg G.next d'.view
      rw [hn'] at this
      exact this.trans h2
    have he : s'.engines = es := d'.engines.trans h3
    have hr : r ≤ es.length + 1 := h3 ▸ h1.2
    have hat' : At s' (if b = true ∧ r ≤ es.length then r + 1 else 0) := by
      have := at_next (s := s) (s' := s') (r := r) (b := b) d'.engines e
      rwa [h3] at this
    have hd := h4.trans d'
    rw [cyc_chunk es q r b hr] at hd
    simp only [toggled, a]
    by_cases hc : b = true ∧ r ≤ es.length
    · rw [if_pos hc] at hd hat'; exact ih s' q (r+1) hat' hnext he hd
    · rw [if_neg hc] at hd hat'; exact ih s' (q+1) 0 hat' hnext he hd

/-- **C16.** Whatever the pattern of toggling sub-stepping, the events performed are those of whole
steps followed by a beginning of a step, each step having one prologue, each engine once and in order, and one
epilogue; the world, `O.iter` and `O.time` are what these events make of the initial ones. -/
theorem C16_substepping_same [Add T] (B : Beh E W T) (hB : NoRaise B) (hA : NoAssign B) (s : Sc E W T)
    (h0 : s.subStep = -1) (hn : s.next = []) (bs : List Bool) :
    ∃ s' q r, toggled B s bs = some s' ∧ r ≤ s.engines.length + 1 ∧ s'.subStep = (r : Int) - 1 ∧
      s'.log = s.log ++ cyc s.engines q r ∧ s'.iter = s.iter + q ∧
      view s' = (cyc s.engines q r).foldl (evG B) (view s) := by
  classical
  obtain ⟨s', q, r, a, b, _, e, d⟩ := toggled_aux B hB hA s.engines s bs s 0 0 ⟨by simpa using h0, by omega⟩ hn rfl
    (by simpa [cyc] using Did.refl B s)
  refine ⟨s', q, r, a, e ▸ b.2, b.1, d.log, ?_, d.view⟩
  have h := congrArg G.iter d.view
  rw [foldl_iter] at h
  have hc : (cyc s.engines q r).count .epi = q := by
    rw [cyc, List.count_append]
    have h1 : ((List.replicate q (stepEvs s.engines)).flatten).count Ev.epi = q := by
      induction q with
      | zero => simp
      | succ q _ =>
        rw [List.count_flatten]
        simp [show (stepEvs s.engines).count Ev.epi = 1 by simpa using count_epi_drop s.engines 0 (by omega)]
    have h2 : ((stepEvs s.engines).take r).count Ev.epi = 0 := by
      have hall : (stepEvs s.engines).count Ev.epi = 1 := by simpa using count_epi_drop s.engines 0 (by omega)
      have hd := count_epi_drop s.engines r (e ▸ b.2)
      have := List.count_append (a := Ev.epi) (l₁ := (stepEvs s.engines).take r) (l₂ := (stepEvs s.engines).drop r)
      rw [List.take_append_drop] at this
      omega
    omega
  rw [hc] at h
  exact h

/-- consequence: two toggling patterns that both end between steps after the same number of steps give
the same world, time and iteration -/
theorem C16_same_result [Add T] (B : Beh E W T) (hB : NoRaise B) (hA : NoAssign B) (s : Sc E W T)
    (h0 : s.subStep = -1) (hn : s.next = []) (bs bs' : List Bool) (t t' : Sc E W T)
    (h : toggled B s bs = some t) (h' : toggled B s bs' = some t') (e : t.subStep = t'.subStep) (hi : t.iter = t'.iter) :
    t.w = t'.w ∧ t.time = t'.time ∧ t.log = t'.log := by
  obtain ⟨u, q, r, a, _, c, d, f, g⟩ := C16_substepping_same B hB hA s h0 hn bs
  obtain ⟨u', q', r', a', _, c', d', f', g'⟩ := C16_substepping_same B hB hA s h0 hn bs'
  rw [h] at a; rw [h'] at a'
  cases a; cases a'
  have hq : q = q' := by omega
  have hr : r = r' := by omega
  subst hq hr
  have hv := g.trans g'.symm
  exact ⟨congrArg G.w hv, congrArg G.time hv, d.trans d'.symm⟩

/-! A concrete case: two engines, the world is a list of numbers that the engines extend. -/

/-- behaviour used in the examples: engine `n` appends `n`; engine 7 assigns `O.engines=[1,2]`, engine 8 assigns
`[]`, engine 9 raises unless the world already contains a 9 -/
def exB : Beh Nat (List Nat) Int where
  act n w := ⟨w ++ [n], if n = 7 then some [1, 2] else if n = 8 then some [] else none, none,
    decide (n = 9) && !w.contains 9⟩
  pro w := w ++ [100]
  dt _ := 3

def exS (es : List Nat) : Sc Nat (List Nat) Int := ⟨es, [], -1, false, 0, 0, [], []⟩

/-- decidable view of a result -/
def res : Out (Sc Nat (List Nat) Int) → List Nat × List Nat × Int × Nat × Int × List Nat × Bool
  | .ok s => (s.engines, s.next, s.subStep, s.iter, s.time, s.w, true)
  | .raised s => (s.engines, s.next, s.subStep, s.iter, s.time, s.w, false)

def thenDo (o : Out (Sc E W T)) (f : Sc E W T → Out (Sc E W T)) : Out (Sc E W T) :=
  match o with
  | .ok s => f s
  | .raised s => f s

example : ∃ t, toggled ⟨fun n w => ⟨w ++ [n], none, none, false⟩, fun w => w ++ [100], fun _ => (3:Int)⟩ (exS [1, 2])
    [true, true, false, false, true] = some t ∧ t.w = [100, 1, 2, 100, 1, 2, 100] ∧ t.iter = 2 ∧ t.time = 6 :=
  ⟨_, rfl, by decide +kernel, by decide +kernel, by decide +kernel⟩

/-! ## C17 -/

/-- the last list assigned to `O.engines` by the engines of the completed events `evs`, starting in world `w` -/
def assigned (B : Beh E W T) : W → List (Ev E) → Option (List E)
  | _, [] => none
  | w, .pro :: r => assigned B (B.pro w) r
  | w, .eng e :: r => (assigned B (B.act e w).w r).or (B.act e w).assign
  | w, .epi :: r => assigned B w r

theorem foldl_next [Add T] (B : Beh E W T) (evs : List (Ev E)) : ∀ g : G E W T,
    (evs.foldl (evG B) g).next = (assigned B g.w evs).getD g.next := by
  induction evs with
  | nil => intro g; rfl
  | cons e es ih =>
    intro g
    rw [List.foldl_cons, ih]
    cases e with
    | pro => rfl
    | epi => rfl
    | eng e =>
      simp only [evG, assigned]
      cases assigned B (B.act e g.w).w es <;> simp

/-- assignments made by engines are never empty lists -/
def NonEmptyAssign (B : Beh E W T) : Prop := ∀ e w l, (B.act e w).assign = some l → l ≠ []

theorem assigned_ne (B : Beh E W T) (hB : NonEmptyAssign B) (evs : List (Ev E)) : ∀ w l,
    assigned B w evs = some l → l ≠ [] := by
  induction evs with
  | nil => intro w l h; cases h
  | cons e es ih =>
    intro w l h
    cases e with
    | pro => exact ih _ _ h
    | epi => exact ih _ _ h
    | eng e =>
      simp only [assigned] at h
      cases ha : assigned B (B.act e w).w es with
      | none => rw [ha] at h; exact hB _ _ _ (by simpa using h)
      | some l' => rw [ha] at h; simp at h; subst h; exact ih _ _ ha

/-- Histories of a scene: `last` is the list last assigned to `O.engines` (by the user or by an engine), `running` the
value `last` had when the step in progress began. Three uses for which the code does not keep its promise are
excluded: assigning an empty list, assigning between two steps while an assignment made inside the previous step is
pending, and switching sub-stepping off right after the prologue while an assignment is pending. -/
inductive Hist [Add T] (B : Beh E W T) : Sc E W T → List E → List E → Prop
  | init (s : Sc E W T) : s.subStep = -1 → s.next = [] → Hist B s s.engines s.engines
  | setSub {s last running} (b : Bool) : Hist B s last running → Hist B (setSub s b) last running
  | setEngines {s last running} (l : List E) : Hist B s last running → l ≠ [] → (s.subStep < 0 → s.next = []) →
      Hist B (enginesSet s l) l running
  | step {s s' last running} : Hist B s last running →
      (s.next ≠ [] → s.subStep = 0 → s.subStepping = true) → move B s = .ok s' →
      Hist B s' ((assigned B s.w (s'.log.drop s.log.length)).getD last) (if s.subStep < 0 then last else running)

structure HInv (s : Sc E W T) (last running : List E) : Prop where
  pos : ∃ r, At s r
  get : enginesGet s = last
  run : 0 ≤ s.subStep → s.engines = running

theorem enginesGet_nil {s : Sc E W T} (h : s.next = []) : enginesGet s = s.engines := by simp [enginesGet, h]
theorem enginesGet_ne {s : Sc E W T} (h : s.next ≠ []) : enginesGet s = s.next := by
  simp [enginesGet, h]

theorem adopt_between {s : Sc E W T} (h : s.subStep = -1) :
    (adopt s).engines = enginesGet s ∧ (adopt s).next = [] ∧ (adopt s).subStep = -1 := by
  by_cases hn : s.next = []
  · rw [adopt_nil hn, enginesGet_nil hn]; exact ⟨rfl, hn, h⟩
  · rw [enginesGet_ne hn]
    simp [adopt, h, hn]

theorem adopt_inside {s : Sc E W T} (h : 0 ≤ s.subStep) (h' : s.next ≠ [] → s.subStep = 0 → s.subStepping = true) :
    adopt s = s := by
  unfold adopt
  rw [if_neg]
  intro hc
  simp only [Bool.and_eq_true, Bool.not_eq_true', List.isEmpty_eq_false_iff, Bool.or_eq_true, decide_eq_true_eq] at hc
  obtain ⟨h1, h2 | ⟨h2, h3⟩⟩ := hc
  · omega
  · have := h' h1 (by omega); rw [this] at h3; cases h3

theorem hinv_step [Add T] (B : Beh E W T) (hB : NoRaise B) (hA : NonEmptyAssign B) {s : Sc E W T} {last running}
    (hI : HInv s last running) (hp : s.next ≠ [] → s.subStep = 0 → s.subStepping = true) :
    ∃ s', move B s = .ok s' ∧
      s'.log = s.log ++ chunk (if s.subStep < 0 then last else running) (s.subStep + 1).toNat s.subStepping ∧
      HInv s' ((assigned B s.w (s'.log.drop s.log.length)).getD last) (if s.subStep < 0 then last else running) := by
  obtain ⟨r, hr⟩ := hI.pos
  have hr1 := hr.1
  -- position and list after adoption
  have key : At (adopt s) r ∧ (adopt s).engines = (if s.subStep < 0 then last else running) ∧
      enginesGet (adopt s) = last ∧ (s.subStep < 0 → (adopt s).next = []) := by
    by_cases hlt : s.subStep < 0
    · have h1 : s.subStep = -1 := by omega
      obtain ⟨a, b, c⟩ := adopt_between h1
      rw [if_pos hlt]
      refine ⟨⟨by omega, by omega⟩, a.trans hI.get, ?_, fun _ => b⟩
      rw [enginesGet_nil b, a, hI.get]
    · rw [if_neg hlt, adopt_inside (by omega) hp]
      exact ⟨hr, hI.run (by omega), hI.get, fun h => absurd h hlt⟩
  obtain ⟨k1, k2, k3, k4⟩ := key
  obtain ⟨s', a, d, e⟩ := move_ok B hB s r k1
  obtain ⟨f1, f2, f3, f4, f5⟩ := adopt_same s
  have hlog : s'.log = s.log ++ chunk (if s.subStep < 0 then last else running) (s.subStep + 1).toNat s.subStepping := by
    rw [d.log, f1, k2, f5]
    have : (s.subStep + 1).toNat = r := by omega
    rw [this]
  refine ⟨s', a, hlog, ?_, ?_, ?_⟩
  · exact ⟨_, at_next d.engines e⟩
  · have hnx := congrArg G.next d.view
    rw [foldl_next] at hnx
    simp only [view, f4] at hnx
    have hdrop : s'.log.drop s.log.length = chunk (adopt s).engines r (adopt s).subStepping := by
      rw [d.log, f1]; simp
    rw [hdrop]
    cases ha : assigned B s.w (chunk (adopt s).engines r (adopt s).subStepping) with
    | some l =>
      rw [ha] at hnx
      have hl := assigned_ne B hA _ _ _ ha
      simp only [Option.getD_some] at hnx ⊢
      rw [enginesGet_ne (by rw [hnx]; exact hl), hnx]
    | none =>
      rw [ha] at hnx
      simp only [Option.getD_none] at hnx ⊢
      rw [← k3]
      simp only [enginesGet, hnx, d.engines]
  · intro _; rw [d.engines, k2]

theorem hist_inv [Add T] (B : Beh E W T) (hB : NoRaise B) (hA : NonEmptyAssign B) {s : Sc E W T} {last running}
    (h : Hist B s last running) : HInv s last running := by
  induction h with
  | init s h1 h2 =>
    exact ⟨⟨0, by simpa using h1, by omega⟩, enginesGet_nil h2, fun h => by omega⟩
  | setSub b _ ih => exact ⟨ih.pos, ih.get, ih.run⟩
  | @setEngines s last running l _ hl hc ih =>
    obtain ⟨r, hr⟩ := ih.pos
    by_cases hlt : s.subStep < 0
    · have e : enginesSet s l = { s with engines := l } := by simp [enginesSet, hlt]
      rw [e]
      refine ⟨⟨0, ?_, by omega⟩, enginesGet_nil (hc hlt), fun h => absurd h (by simpa using hlt)⟩
      have := hr.1; simp; omega
    · have e : enginesSet s l = { s with next := l } := by simp [enginesSet, hlt]
      rw [e]
      exact ⟨⟨r, hr⟩, enginesGet_ne (s := { s with next := l }) hl, ih.run⟩
  | step _ hp hm ih =>
    obtain ⟨s1, a, _, c⟩ := hinv_step B hB hA ih hp
    rw [a] at hm; cases hm
    exact c

/-- **C17, partial.** In every history that avoids the three excluded uses: `O.engines` reads back the list
last assigned; a call of `O.step()` made between two steps runs the list last assigned; a call made inside
a step goes on with the list with which the step was begun, whatever was assigned since.
Missing for the full claim: the excluded uses, where it is false (`C17_violated_*`). -/
theorem C17_replace_partial [Add T] (B : Beh E W T) (hB : NoRaise B) (hA : NonEmptyAssign B) {s : Sc E W T}
    {last running : List E} (h : Hist B s last running) :
    enginesGet s = last ∧ ((s.next ≠ [] → s.subStep = 0 → s.subStepping = true) →
      ∃ s', move B s = .ok s' ∧
        s'.log = s.log ++ chunk (if s.subStep < 0 then last else running) (s.subStep + 1).toNat s.subStepping) := by
  have hI := hist_inv B hB hA h
  refine ⟨hI.get, fun hp => ?_⟩
  obtain ⟨s', a, b, _⟩ := hinv_step B hB hA hI hp
  exact ⟨s', a, b⟩

/-- behaviour of the examples without the engines 8 and 9 -/
def exB' : Beh Nat (List Nat) Int where
  act n w := ⟨w ++ [n], if n = 7 then some [1, 2] else none, none, false⟩
  pro w := w ++ [100]
  dt _ := 3

/-- hypotheses of `C17_replace_partial` are met by a step in which engine 7 replaces the engines: the step
still runs `[7,3]`, the following one `[1,2]` -/
example : NoRaise exB' ∧ NonEmptyAssign exB' ∧ ∃ s1 s2, move exB' (exS [7, 3]) = .ok s1 ∧ move exB' s1 = .ok s2 ∧
    Hist exB' s1 [1, 2] [7, 3] ∧ s1.w = [100, 7, 3] ∧ s2.w = [100, 7, 3, 100, 1, 2] := by
  refine ⟨fun _ _ => rfl, ?_, _, _, rfl, rfl, ?_, by decide +kernel, by decide +kernel⟩
  · intro e w l h
    simp only [exB'] at h
    split at h <;> simp at h
    rw [← h]; simp
  · exact Hist.step (Hist.init (exS [7, 3]) rfl rfl) (by intro h; exact absurd rfl h) rfl

/-- **C17 violated.** An engine assigns an empty list: `O.engines` does not read it back, and it is never used. -/
theorem C17_violated_empty : ∃ s1 s2, move exB (exS [8]) = .ok s1 ∧ assigned exB [] s1.log = some [] ∧
    enginesGet s1 = [8] ∧ move exB s1 = .ok s2 ∧ s2.log = [.pro, .eng 8, .epi, .pro, .eng 8, .epi] := by
  refine ⟨_, _, rfl, by decide +kernel, by decide +kernel, rfl, by decide +kernel⟩

/-- **C17 violated.** Engine 7 assigns `[1,2]`; after the step the user assigns `[5]`: `O.engines` still reads
`[1,2]`, and the next step runs `[1,2]`; the newer assignment is lost. -/
theorem C17_violated_lost : ∃ s1 s2, move exB (exS [7]) = .ok s1 ∧ s1.subStep = -1 ∧
    enginesGet (enginesSet s1 [5]) = [1, 2] ∧
    move exB (enginesSet s1 [5]) = .ok s2 ∧ s2.engines = [1, 2] ∧ s2.next = [] ∧
    s2.log = [.pro, .eng 7, .epi, .pro, .eng 1, .eng 2, .epi] := by
  refine ⟨_, _, rfl, rfl, by decide +kernel, rfl, by decide +kernel, by decide +kernel, by decide +kernel⟩

/-- **C17 violated.** Sub-stepping, the prologue has been done; the user assigns `[5]` and switches sub-stepping off:
the running step is abandoned and begun again with the new list, with a second prologue. -/
theorem C17_violated_restart : ∃ s1 s2, move exB (setSub (exS [3, 4]) true) = .ok s1 ∧ s1.subStep = 0 ∧
    move exB (setSub (enginesSet s1 [5]) false) = .ok s2 ∧ s2.iter = 1 ∧
    s2.log = [.pro, .pro, .eng 5, .epi] := by
  refine ⟨_, _, rfl, rfl, rfl, rfl, by decide +kernel⟩

/-! ## C18 -/

/-- the state after a call, whether or not it raised -/
def after : Out (Sc E W T) → Sc E W T
  | .ok s => s
  | .raised s => s

/-- `n` calls of `O.step()` in sub-stepping mode, resuming after exceptions -/
def retry [Add T] (B : Beh E W T) : Nat → Sc E W T → Sc E W T
  | 0, s => s
  | n + 1, s => retry B n (after (move B (setSub s true)))

/-- **C18, partial.** In sub-stepping mode, however many calls end by an exception and are resumed, the completed
events are those of whole steps and the beginning of a step: no engine that has completed runs again in the
same step. Missing: the normal mode, where the claim is false (`C18_violated`). -/
theorem C18_substepping_partial [Add T] (B : Beh E W T) (hA : NoAssign B) (s : Sc E W T)
    (h0 : s.subStep = -1) (hn : s.next = []) (n : Nat) :
    ∃ q r, r ≤ s.engines.length + 1 ∧ (retry B n s).subStep = (r : Int) - 1 ∧
      (retry B n s).log = s.log ++ cyc s.engines q r := by
  suffices H : ∀ n (t : Sc E W T) q r, At t r → t.next = [] → t.engines = s.engines →
      t.log = s.log ++ cyc s.engines q r →
      ∃ q r, r ≤ s.engines.length + 1 ∧ (retry B n t).subStep = (r : Int) - 1 ∧
        (retry B n t).log = s.log ++ cyc s.engines q r by
    exact H n s 0 0 ⟨by simpa using h0, by omega⟩ hn rfl (by simp [cyc])
  intro n
  induction n with
  | zero => intro t q r h1 _ h3 h4; exact ⟨q, r, h3 ▸ h1.2, h1.1, h4⟩
  | succ n ih =>
    intro t q r h1 h2 h3 h4
    rw [retry]
    rcases move_sub_cases B (setSub t true) r h1 h2 rfl with ⟨s', a, d, e⟩ | ⟨s', e, a, _, c, d, f, _, _, _, g⟩
    · rw [a]
      have hr : r ≤ s.engines.length + 1 := h3 ▸ h1.2
      have e' : s'.subStep = if true = true ∧ r ≤ t.engines.length then (r : Int) else -1 := by
        rw [e]; simp only [true_and]; rfl
      have hat' := at_next (s := t) (s' := s') (b := true) d.engines e'
      have hd : s'.log = s.log ++ (cyc s.engines q r ++ chunk s.engines r true) := by
        rw [d.log, ← List.append_assoc, ← h4, ← h3]; rfl
      have hnext : s'.next = [] := by
        have hn' : ∀ (evs : List (Ev E)) (g : G E W T), (evs.foldl (evG B) g).next = g.next := by
          intro evs
          induction evs with
          | nil => intro g; rfl
          | cons x xs ihx => intro g; rw [List.foldl_cons, ihx]; cases x <;> simp [evG, hA _ _]
        have := congrArg G.next d.view
        rw [hn'] at this
        exact this.trans h2
      have he : s'.engines = s.engines := d.engines.trans h3
      rw [cyc_chunk _ q r true hr] at hd
      rw [h3] at hat'
      by_cases hc : true = true ∧ r ≤ s.engines.length
      · rw [if_pos hc] at hd hat'; exact ih s' q (r+1) hat' hnext he hd
      · rw [if_neg hc] at hd hat'; exact ih s' (q+1) 0 hat' hnext he hd
    · rw [a]
      refine ih s' q r ⟨f.trans h1.1, ?_⟩ ?_ (d.trans h3) (c.trans h4)
      · rw [d]; exact h1.2
      · rw [g, hA]; exact h2

/-- hypotheses met: engine 9 raises the first time; it alone is run again -/
example : (retry exB 5 (exS [1, 9, 2])).log = [.pro, .eng 1, .eng 9, .eng 2] := by decide +kernel

/-- **C18 violated** (normal mode), for every engine list and failing position: if a step ends by an exception, the
engines `pre` before the failing one have completed, and resuming with success runs all the engines again from
the first one. -/
theorem C18_violated [Add T] (B : Beh E W T) (s s1 s2 : Sc E W T) (h0 : s.subStep = -1) (hs : s.subStepping = false)
    (hn : s.next = []) (h1 : move B s = .raised s1) (hn1 : s1.next = []) (hs1 : s1.subStepping = false)
    (h2 : move B s1 = .ok s2) :
    ∃ pre e post, s.engines = pre ++ e :: post ∧ s1.log = s.log ++ .pro :: pre.map .eng ∧ s1.iter = s.iter ∧
      s2.iter = s.iter + 1 ∧
      s2.log = s.log ++ .pro :: pre.map .eng ++ (pre ++ e :: post).map .eng ++ [.epi] := by
  classical
  have hm : move B s = wholeStep B s := by simp [move, adopt_nil hn, hs, h0]
  rw [hm] at h1
  have hp : 0 ≤ (prologue B { s with subStep := 0 }).subStep := by simp [prologue]
  have ht : turns B (prologue B { s with subStep := 0 }) s.engines = .raised s1 := by
    have e : turns B (prologue B { s with subStep := 0 }) s.engines =
      turns B (prologue B { s with subStep := 0 }) (prologue B { s with subStep := 0 }).engines := rfl
    rw [e]
    simp only [wholeStep] at h1
    split at h1
    · cases h1
    · rename_i u hu; rw [hu]; cases h1; rfl
  obtain ⟨pre, e, post, p1, p2, p3, p4, p5, p6⟩ := turns_of_raised B s.engines _ _ hp ht
  have q4 : s1.subStep = 0 := p4
  have q3 : s1.engines = s.engines := p3
  have q5 : s1.iter = s.iter := p5
  have q2 : s1.log = s.log ++ .pro :: pre.map .eng := by rw [p2]; simp [prologue]
  have hat : At s1 1 := ⟨by rw [q4]; rfl, by omega⟩
  have hm1 : move B s1 = partStep B s1 := by
    simp [move, adopt_nil hn1, hs1, q4]
  rw [hm1, partStep_eq B s1 1 hat, hs1, if_neg (by simp)] at h2
  cases hmm : micros B s1 (((1 : Nat) : Int) - 1) (s1.engines.length + 2 - 1) with
  | raised u => rw [hmm] at h2; simp [finish] at h2
  | ok u =>
    rw [hmm] at h2
    simp only [finish, Out.ok.injEq] at h2
    obtain ⟨d, _⟩ := micros_of_ok B _ s1 u 1 (by omega) (by omega) hmm
    have hl : ((stepEvs s1.engines).drop 1).take (s1.engines.length + 2 - 1) = s1.engines.map .eng ++ [.epi] := by
      rw [List.take_of_length_le (by simp [stepEvs_length])]; rfl
    rw [hl] at d
    refine ⟨pre, e, post, p1, q2, q5, ?_, ?_⟩
    · have := congrArg G.iter d.view
      rw [foldl_iter, List.count_append, count_epi_map] at this
      rw [← h2]
      simpa [view, q5] using this
    · rw [← h2]
      show u.log = _
      rw [d.log, q2, q3, p1]; simp

/-- the violation occurs: engines 1, 9 with 9 raising once; engine 1 completes twice in one step -/
example : ∃ s1 s2, move exB (exS [1, 9]) = .raised s1 ∧ s1.next = [] ∧ s1.subStepping = false ∧ move exB s1 = .ok s2 ∧
    s2.log = [.pro, .eng 1, .eng 1, .eng 9, .epi] ∧ s2.iter = 1 :=
  ⟨_, _, rfl, rfl, rfl, rfl, by decide +kernel, by decide +kernel⟩

/-! ## C19 -/

theorem at_false {s : Sc E W T} {r : Nat} (h : At s r) : At { s with subStepping := false } r := h

section Run
variable [AddCommGroup T] [LinearOrder T]

/-- **C19, first half.** `O.run(n)` with `n>0`, from any point of any step, stops after exactly `n` rounds of
the loop, at iteration `i+n`; it has not stopped before. -/
theorem C19_run_n (B : Beh E W T) (hB : NoRaise B) (s : Sc E W T) (r : Nat) (h : At s r) (n : Nat) (hn : 0 < n)
    (old : Int) (stopTime : T) (ht : ¬ 0 < stopTime) (m : Nat) :
    (m < n → (loop B (runStop s n old) stopTime m s).2 = false ∧
      (loop B (runStop s n old) stopTime m s).1.iter = s.iter + m) ∧
    (n ≤ m → (loop B (runStop s n old) stopTime m s).2 = true ∧
      (loop B (runStop s n old) stopTime m s).1.iter = s.iter + n) := by
  have hst : runStop s n old = (s.iter : Int) + n := by simp [runStop, hn]
  rw [hst]
  suffices H : ∀ (m : Nat) (t : Sc E W T) (r k : Nat), At t r → t.iter = s.iter + k → k < n →
      (m + k < n → (loop B ((s.iter : Int) + n) stopTime m t).2 = false ∧
        (loop B ((s.iter : Int) + n) stopTime m t).1.iter = s.iter + k + m) ∧
      (n ≤ m + k → (loop B ((s.iter : Int) + n) stopTime m t).2 = true ∧
        (loop B ((s.iter : Int) + n) stopTime m t).1.iter = s.iter + n) by
    simpa using H m s r 0 h rfl hn
  intro m
  induction m with
  | zero => intro t r k h1 h2 h3; exact ⟨fun _ => ⟨rfl, by simp [loop, h2]⟩, fun h => by omega⟩
  | succ m ih =>
    intro t r k h1 h2 h3
    obtain ⟨t', a, b, c⟩ := move_whole B hB { t with subStepping := false } r (at_false h1) rfl
    have hb : t'.iter = s.iter + (k + 1) := by rw [b]; show t.iter + 1 = _; omega
    have hsa : singleAction B ((s.iter : Int) + n) stopTime t = .ok (t', decide (k + 1 = n)) := by
      simp only [singleAction, a, ht, decide_false, Bool.false_and, Bool.or_false]
      have e1 : decide ((s.iter : Int) + n > 0) = true := by simp; omega
      have e2 : decide ((t'.iter : Int) = (s.iter : Int) + n) = decide (k + 1 = n) := by
        apply decide_eq_decide.mpr; omega
      rw [e1, e2]; simp
    by_cases hk : k + 1 = n
    · rw [loop, hsa]
      simp only [hk, decide_true]
      exact ⟨fun h => by omega, fun _ => ⟨trivial, by omega⟩⟩
    · rw [loop, hsa]
      simp only [hk, decide_false]
      have := ih t' 0 (k+1) c hb (by omega)
      refine ⟨fun h => ?_, fun h => this.2 (by omega)⟩
      obtain ⟨x, y⟩ := this.1 (by omega)
      exact ⟨x, by omega⟩

/-- **C19, second half, partial.** With a constant `dt=d>0` and a stop time that is a whole number `k≥1` of steps
away, the run stops after exactly `k` steps. Missing: any other stop time, for which the run does not stop
(`C19_violated_stopAtTime`). -/
theorem C19_stopAtTime_partial [IsOrderedAddMonoid T] (B : Beh E W T) (hB : NoRaise B) (d : T) (hd : 0 < d)
    (hdt : ∀ w, B.dt w = d)
    (s : Sc E W T) (r : Nat) (h : At s r) (k : Nat) (hk : 0 < k) (stopIter : Int) (hi : stopIter ≤ 0)
    (hst : 0 < s.time + k • d) (m : Nat) :
    (m < k → (loop B stopIter (s.time + k • d) m s).2 = false ∧
      (loop B stopIter (s.time + k • d) m s).1.time = s.time + m • d) ∧
    (k ≤ m → (loop B stopIter (s.time + k • d) m s).2 = true ∧
      (loop B stopIter (s.time + k • d) m s).1.time = s.time + k • d) := by
  have inj : ∀ a b : Nat, s.time + a • d = s.time + b • d → a = b := by
    intro a b hab
    have hab' := add_left_cancel hab
    rcases Nat.lt_trichotomy a b with hlt | he | hlt
    · exact absurd hab' (ne_of_lt (nsmul_lt_nsmul_left hd hlt))
    · exact he
    · exact absurd hab'.symm (ne_of_lt (nsmul_lt_nsmul_left hd hlt))
  suffices H : ∀ (m : Nat) (t : Sc E W T) (r j : Nat), At t r → t.time = s.time + j • d → j < k →
      (m + j < k → (loop B stopIter (s.time + k • d) m t).2 = false ∧
        (loop B stopIter (s.time + k • d) m t).1.time = s.time + (j + m) • d) ∧
      (k ≤ m + j → (loop B stopIter (s.time + k • d) m t).2 = true ∧
        (loop B stopIter (s.time + k • d) m t).1.time = s.time + k • d) by
    simpa using H m s r 0 h (by simp) hk
  intro m
  induction m with
  | zero => intro t r j h1 h2 h3; exact ⟨fun _ => ⟨rfl, by simp [loop, h2]⟩, fun h => by omega⟩
  | succ m ih =>
    intro t r j h1 h2 h3
    obtain ⟨t', a, b, c⟩ := move_whole B hB { t with subStepping := false } r (at_false h1) rfl
    have htm := move_whole_time B hB _ t' r (at_false h1) rfl a
    have hb : t'.time = s.time + (j + 1) • d := by
      rw [htm, hdt, h2, succ_nsmul, add_assoc]
    have hsa : singleAction B stopIter (s.time + k • d) t = .ok (t', decide (j + 1 = k)) := by
      have e0 : ¬ stopIter > 0 := by omega
      simp only [singleAction, a, e0, decide_false, Bool.false_and, Bool.false_or, hst, decide_true, Bool.true_and]
      have e2 : decide (t'.time = s.time + k • d) = decide (j + 1 = k) := by
        apply decide_eq_decide.mpr
        rw [hb]
        exact ⟨inj _ _, fun h => by rw [h]⟩
      rw [e2]
    by_cases hk : j + 1 = k
    · rw [loop, hsa]
      simp only [hk, decide_true]
      exact ⟨fun h => by omega, fun _ => ⟨trivial, by rw [hb, hk]⟩⟩
    · rw [loop, hsa]
      simp only [hk, decide_false]
      have := ih t' 0 (j+1) c hb (by omega)
      refine ⟨fun h => ?_, fun h => this.2 (by omega)⟩
      obtain ⟨x, y⟩ := this.1 (by omega)
      exact ⟨x, by rw [y]; congr 2; omega⟩

end Run

/-- hypotheses met: two engines, started in the middle of a sub-stepped step -/
example : (loop exB' (runStop (exS [1, 2]) 2 0) 0 5 { exS [1, 2] with subStep := 1 }).1.log =
    [.eng 2, .epi, .pro, .eng 1, .eng 2, .epi] := by decide +kernel

example : (loop exB' 0 6 5 (exS [1, 2])).2 = true ∧ (loop exB' 0 6 5 (exS [1, 2])).1.time = 6 := by decide +kernel

/-- **C19 violated.** `dt=3`, `O.stopAtTime=10`: the time steps over 10, and the run never stops. -/
theorem C19_violated_stopAtTime (m : Nat) : (loop exB' 0 (10 : Int) m (exS [1])).2 = false ∧
    (loop exB' 0 (10 : Int) m (exS [1])).1.time = 3 * m := by
  have hB : NoRaise exB' := fun _ _ => rfl
  suffices H : ∀ (m : Nat) (t : Sc Nat (List Nat) Int) (r j : Nat), At t r → t.time = 3 * (j : Int) →
      (loop exB' 0 (10 : Int) m t).2 = false ∧ (loop exB' 0 (10 : Int) m t).1.time = 3 * ((j + m : Nat) : Int) by
    simpa using H m (exS [1]) 0 0 ⟨rfl, by simp⟩ rfl
  intro m
  induction m with
  | zero => intro t r j _ h2; exact ⟨rfl, by simp [loop, h2]⟩
  | succ m ih =>
    intro t r j h1 h2
    obtain ⟨t', a, b, c⟩ := move_whole exB' hB { t with subStepping := false } r h1 rfl
    have htm := move_whole_time exB' hB _ t' r (show At { t with subStepping := false } r from h1) rfl a
    have hb : t'.time = 3 * ((j + 1 : Nat) : Int) := by
      rw [htm]; show t.time + 3 = _; rw [h2]; push_cast; omega
    have hsa : singleAction exB' 0 (10 : Int) t = .ok (t', false) := by
      simp only [singleAction, a]
      have : t'.time ≠ 10 := by rw [hb]; omega
      simp [this]
    rw [loop, hsa]
    obtain ⟨x, y⟩ := ih t' 0 (j+1) c hb
    exact ⟨x, by simp only [y]; push_cast; omega⟩

end Verif.Step
