import Verif.Mpi.Vote
import Mathlib.Data.Nat.Find
import Mathlib.Data.List.Basic
import Mathlib.Tactic.SplitIfs
/-!
# C45: all processes take the same decision

Specification: `Needed` (some process needs collision detection), `rounds` (roots of the broadcasts of a call).
-/
namespace Verif.Mpi.Vote

/-! ## Specification -/

/-- some process needs collision detection in call `t` -/
def Needed (n : Nat) (need : Nat → Nat → Bool) (t : Nat) : Prop := ∃ p < n, need t p = true

instance (n : Nat) (need : Nat → Nat → Bool) (t : Nat) : Decidable (Needed n need t) := by unfold Needed; infer_instance

/-- the roots of the broadcasts of a call: all processes up to and with the first that says yes -/
def rounds (n : Nat) (ask : Nat → Bool) : List Nat := (List.range n).filter fun r => (List.range r).all fun p => !ask p

/-! ## Lemmas -/

/-- number of broadcasts of a call -/
def coll (n : Nat) (ask : Nat → Bool) : Nat := (rounds n ask).length

/-- number of broadcasts before call `t` -/
def total (n : Nat) (need : Nat → Nat → Bool) : Nat → Nat
  | 0 => 0
  | t + 1 => total n need t + coll n (need t)

theorem rounds_succ (n : Nat) (ask : Nat → Bool) : rounds (n + 1) ask = rounds n ask ++ (if ∀ p < n, ask p = false then [n] else []) := by
  unfold rounds
  rw [List.range_succ, List.filter_append]
  congr 1
  by_cases h : ∀ p < n, ask p = false
  · rw [if_pos h]; simp; exact h
  · rw [if_neg h]; simp; simpa using h

/-- the roots are 0, 1, … -/
theorem rounds_eq (n : Nat) (ask : Nat → Bool) : rounds n ask = List.range (coll n ask) := by
  induction n with
  | zero => simp [rounds, coll]
  | succ n ih =>
    unfold coll
    rw [rounds_succ]
    by_cases h : ∀ p < n, ask p = false
    · have : rounds n ask = List.range n := by
        unfold rounds
        refine List.filter_eq_self.mpr fun r hr => ?_
        simp only [List.all_eq_true, List.mem_range, Bool.not_eq_true']
        intro p hp; exact h p (by have := List.mem_range.mp hr; omega)
      rw [if_pos h, this]; simp [List.range_succ]
    · rw [if_neg h]; simpa [coll] using ih

theorem mem_rounds {n : Nat} {ask : Nat → Bool} {r : Nat} : r ∈ rounds n ask ↔ r < n ∧ ∀ p < r, ask p = false := by
  unfold rounds; simp

theorem lt_coll {n : Nat} {ask : Nat → Bool} {r : Nat} : r < coll n ask ↔ r < n ∧ ∀ p < r, ask p = false := by
  rw [← mem_rounds, rounds_eq, List.mem_range]

theorem coll_pos {n : Nat} {ask : Nat → Bool} (h : 0 < n) : 0 < coll n ask := lt_coll.mpr ⟨h, fun p hp => by omega⟩

/-- a yes ends the call -/
theorem coll_yes {n : Nat} {ask : Nat → Bool} {r : Nat} (h : r < coll n ask) (hy : ask r = true) : coll n ask = r + 1 := by
  by_contra hc
  have : r + 1 < coll n ask := by omega
  have := (lt_coll.mp this).2 r (by omega)
  rw [hy] at this; cases this

/-- a no of the last process ends the call -/
theorem coll_last {n : Nat} {ask : Nat → Bool} {r : Nat} (h : r < coll n ask) (hn : ¬ r + 1 < n) : coll n ask = r + 1 := by
  by_contra hc
  have : r + 1 < coll n ask := by omega
  exact hn (lt_coll.mp this).1

/-- after another no it goes on -/
theorem coll_no {n : Nat} {ask : Nat → Bool} {r : Nat} (h : r < coll n ask) (hy : ask r = false) (hn : r + 1 < n) : r + 1 < coll n ask := by
  refine lt_coll.mpr ⟨hn, fun p hp => ?_⟩
  rcases Nat.lt_or_ge p r with h' | h'
  · exact (lt_coll.mp h).2 p h'
  · have : p = r := by omega
    rw [this]; exact hy

theorem total_mono {n : Nat} {need : Nat → Nat → Bool} {t u : Nat} (h : t < u) : total n need t + coll n (need t) ≤ total n need u := by
  induction u with
  | zero => omega
  | succ u ih =>
    rcases Nat.lt_or_ge t u with h' | h'
    · have := ih h'; rw [total]; omega
    · have : t = u := by omega
      subst this; exact Nat.le_refl _

/-- place of a broadcast -/
theorem place_unique {n : Nat} {need : Nat → Nat → Bool} {t u a b : Nat} (ha : a < coll n (need t)) (hb : b < coll n (need u))
    (h : total n need t + a = total n need u + b) : t = u ∧ a = b := by
  rcases Nat.lt_trichotomy t u with e | e | e
  · have := total_mono (n := n) (need := need) e; omega
  · subst e; exact ⟨rfl, by omega⟩
  · have := total_mono (n := n) (need := need) e; omega

/-- roots of the broadcasts of the first `t` calls -/
def allRounds (n : Nat) (need : Nat → Nat → Bool) (t : Nat) : List Nat := (List.range t).flatMap fun u => rounds n (need u)

theorem allRounds_succ (n : Nat) (need : Nat → Nat → Bool) (t : Nat) : allRounds n need (t + 1) = allRounds n need t ++ rounds n (need t) := by
  unfold allRounds; rw [List.range_succ, List.flatMap_append]; simp

theorem allRounds_length (n : Nat) (need : Nat → Nat → Bool) (t : Nat) : (allRounds n need t).length = total n need t := by
  induction t with
  | zero => rfl
  | succ t ih => rw [allRounds_succ, List.length_append, ih]; rfl

/-- what holds in every state that can be reached -/
structure Inv (n : Nat) (need : Nat → Nat → Bool) (s : Vote) : Prop where
  notBad : s.bad = false
  sd : ∀ p < n, s.sd p < coll n (need (s.call p))
  hist : ∀ p < n, s.hist p = allRounds n need (s.call p) ++ List.range (s.sd p)
  res : ∀ p < n, s.res p = (List.range (s.call p)).map fun t => decide (Needed n need t)
  log : ∀ j r v, s.log j = some (r, v) → ∃ t, r < coll n (need t) ∧ j = total n need t + r ∧ v = need t r ∧ j < (s.hist r).length
  arrived : ∀ r < n, ∀ t, r < coll n (need t) → total n need t + r < (s.hist r).length → s.log (total n need t + r) = some (r, need t r)

theorem Inv.count {n : Nat} {need : Nat → Nat → Bool} {s : Vote} (hi : Inv n need s) {p : Nat} (hp : p < n) :
    (s.hist p).length = total n need (s.call p) + s.sd p := by
  rw [hi.hist p hp, List.length_append, allRounds_length, List.length_range]

/-- the effect of a value on the process itself -/
theorem got_self {n : Nat} {need : Nat → Nat → Bool} {s : Vote} {p : Nat} {v : Bool} (h0 : 0 < n) (hsd : s.sd p < coll n (need (s.call p)))
    (hhist : s.hist p = allRounds n need (s.call p) ++ List.range (s.sd p)) (hres : s.res p = (List.range (s.call p)).map fun t => decide (Needed n need t))
    (hv : v = need (s.call p) (s.sd p)) :
    (got n p v s).sd p < coll n (need ((got n p v s).call p)) ∧ (got n p v s).hist p = allRounds n need ((got n p v s).call p) ++ List.range ((got n p v s).sd p) ∧
    (got n p v s).res p = ((List.range ((got n p v s).call p)).map fun t => decide (Needed n need t)) := by
  obtain ⟨hlt, hbefore⟩ := lt_coll.mp hsd
  unfold got
  cases v with
  | true =>
    simp only [if_true, upd]
    refine ⟨coll_pos h0, ?_, ?_⟩
    · rw [hhist, allRounds_succ, rounds_eq, coll_yes hsd hv.symm, List.range_succ]; simp
    · rw [hres, List.range_succ, List.map_append]
      have : Needed n need (s.call p) := ⟨s.sd p, hlt, hv.symm⟩
      simp [this]
  | false =>
    simp only [Bool.false_eq_true, if_false]
    split_ifs with h
    · simp only [upd, if_true]
      exact ⟨coll_no hsd hv.symm h, by rw [hhist, List.range_succ]; simp, hres⟩
    · simp only [upd, if_true]
      refine ⟨coll_pos h0, ?_, ?_⟩
      · rw [hhist, allRounds_succ, rounds_eq, coll_last hsd h, List.range_succ]; simp
      · rw [hres, List.range_succ, List.map_append]
        have : ¬ Needed n need (s.call p) := by
          rintro ⟨q, hq, hy⟩
          rcases Nat.lt_or_ge q (s.sd p) with h' | h'
          · rw [hbefore q h'] at hy; cases hy
          · have : q = s.sd p := by omega
            rw [this, ← hv] at hy; cases hy
        simp [this]

theorem got_other {n p : Nat} {v : Bool} {s : Vote} {x : Nat} (h : x ≠ p) : (got n p v s).sd x = s.sd x ∧ (got n p v s).call x = s.call x ∧
    (got n p v s).hist x = s.hist x ∧ (got n p v s).res x = s.res x := by
  unfold got
  cases v
  · simp only [Bool.false_eq_true, if_false]; split_ifs <;> simp [upd, h]
  · simp [upd, h]

theorem got_same {n p : Nat} {v : Bool} {s : Vote} : (got n p v s).hist p = s.hist p ++ [s.sd p] ∧ (got n p v s).log = s.log ∧ (got n p v s).bad = s.bad := by
  unfold got
  cases v
  · simp only [Bool.false_eq_true, if_false]; split_ifs <;> simp [upd]
  · simp [upd]

theorem Inv.step {n : Nat} {need : Nat → Nat → Bool} {s s' : Vote} (hi : Inv n need s) (e : Step n need s s') : Inv n need s' := by
  cases e with
  | @root p hp h hl =>
    have hself := got_self (n := n) (need := need) (s := { s with log := upd s.log (s.hist p).length (some (p, need (s.call p) p)) }) (p := p)
      (v := need (s.call p) p) (by omega) (hi.sd p hp) (hi.hist p hp) (hi.res p hp) (by simp [h])
    have hcnt := hi.count hp
    rw [h] at hcnt
    obtain ⟨s1, hs1⟩ : ∃ s1, s1 = { s with log := upd s.log (s.hist p).length (some (p, need (s.call p) p)) } := ⟨_, rfl⟩
    obtain ⟨g1, g2, g3⟩ := got_same (n := n) (p := p) (v := need (s.call p) p) (s := s1)
    have ho := fun x (hx : x ≠ p) => got_other (n := n) (v := need (s.call p) p) (s := s1) hx
    rw [← hs1] at hself ⊢
    have e1 : s1.sd = s.sd := by rw [hs1]
    have e2 : s1.call = s.call := by rw [hs1]
    have e3 : s1.hist = s.hist := by rw [hs1]
    have e4 : s1.res = s.res := by rw [hs1]
    have e5 : s1.log = upd s.log (s.hist p).length (some (p, need (s.call p) p)) := by rw [hs1]
    have e6 : s1.bad = s.bad := by rw [hs1]
    have hsdp := hi.sd p hp
    rw [h] at hsdp
    refine ⟨by rw [g3, e6]; exact hi.notBad, fun x hx => ?_, fun x hx => ?_, fun x hx => ?_, ?_, ?_⟩
    · by_cases hxp : x = p
      · subst hxp; exact hself.1
      · rw [(ho x hxp).1, (ho x hxp).2.1, e1, e2]; exact hi.sd x hx
    · by_cases hxp : x = p
      · subst hxp; exact hself.2.1
      · rw [(ho x hxp).2.2.1, (ho x hxp).1, (ho x hxp).2.1, e1, e2, e3]; exact hi.hist x hx
    · by_cases hxp : x = p
      · subst hxp; exact hself.2.2
      · rw [(ho x hxp).2.2.2, (ho x hxp).2.1, e2, e4]; exact hi.res x hx
    · intro j r v hj
      rw [g2, e5] at hj
      unfold upd at hj
      by_cases hjp : j = (s.hist p).length
      · rw [if_pos hjp] at hj
        injection hj with hj; injection hj with h1 h2; subst h1 h2
        exact ⟨s.call p, hsdp, by rw [hjp, hcnt], rfl, by rw [g1, e3, List.length_append, hjp]; simp⟩
      · rw [if_neg hjp] at hj
        obtain ⟨t, h1, h2, h3, h4⟩ := hi.log j r v hj
        refine ⟨t, h1, h2, h3, ?_⟩
        by_cases hrp : r = p
        · subst hrp; rw [g1, e3, List.length_append]; omega
        · rw [(ho r hrp).2.2.1, e3]; exact h4
    · intro r hr t h1 h2
      rw [g2, e5]
      unfold upd
      by_cases hj : total n need t + r = (s.hist p).length
      · rw [if_pos hj]
        rw [hcnt] at hj
        obtain ⟨rfl, rfl⟩ := place_unique h1 hsdp hj
        rfl
      · rw [if_neg hj]
        refine hi.arrived r hr t h1 ?_
        by_cases hrp : r = p
        · subst hrp; rw [g1, e3, List.length_append] at h2; simp at h2; omega
        · rw [(ho r hrp).2.2.1, e3] at h2; exact h2
  | @other p r v hp h hl hr =>
    have hcnt := hi.count hp
    obtain ⟨t, h1, h2, h3, h4⟩ := hi.log _ r v hl
    have hpl := place_unique (hi.sd p hp) h1 (by rw [← h2, hcnt])
    have hself := got_self (n := n) (need := need) (s := s) (p := p)
      (v := v) (by omega) (hi.sd p hp) (hi.hist p hp) (hi.res p hp) (by rw [h3, hpl.1, hpl.2])
    obtain ⟨g1, g2, g3⟩ := got_same (n := n) (p := p) (v := v) (s := s)
    have ho := fun x (hx : x ≠ p) => got_other (n := n) (v := v) (s := s) hx
    refine ⟨by rw [g3]; exact hi.notBad, fun x hx => ?_, fun x hx => ?_, fun x hx => ?_, ?_, ?_⟩
    · by_cases hxp : x = p
      · subst hxp; exact hself.1
      · rw [(ho x hxp).1, (ho x hxp).2.1]; exact hi.sd x hx
    · by_cases hxp : x = p
      · subst hxp; exact hself.2.1
      · rw [(ho x hxp).2.2.1, (ho x hxp).1, (ho x hxp).2.1]; exact hi.hist x hx
    · by_cases hxp : x = p
      · subst hxp; exact hself.2.2
      · rw [(ho x hxp).2.2.2, (ho x hxp).2.1]; exact hi.res x hx
    · intro j r' v' hj
      rw [g2] at hj
      obtain ⟨t', k1, k2, k3, k4⟩ := hi.log j r' v' hj
      refine ⟨t', k1, k2, k3, ?_⟩
      by_cases hrp : r' = p
      · subst hrp; rw [g1, List.length_append]; omega
      · rw [(ho r' hrp).2.2.1]; exact k4
    · intro r' hr' t' k1 k2
      rw [g2]
      refine hi.arrived r' hr' t' k1 ?_
      by_cases hrp : r' = p
      · subst hrp
        rw [g1, List.length_append] at k2; simp at k2
        by_contra hc
        have : total n need t' + r' = total n need (s.call r') + s.sd r' := by omega
        exact h (place_unique k1 (hi.sd r' hp) this).2.symm
      · rw [(ho r' hrp).2.2.1] at k2; exact k2
  | @clash p x hp h hl =>
    obtain ⟨r, v⟩ := x
    obtain ⟨t, h1, h2, h3, h4⟩ := hi.log _ r v hl
    have hpl := place_unique (hi.sd p hp) h1 (by rw [← h2, hi.count hp])
    rw [← hpl.2, h] at h4
    omega
  | @wrong p r v hp h hl hr =>
    obtain ⟨t, h1, h2, h3, h4⟩ := hi.log _ r v hl
    have hpl := place_unique (hi.sd p hp) h1 (by rw [← h2, hi.count hp])
    exact absurd hpl.2.symm hr

theorem Reach.inv {n : Nat} (h0 : 0 < n) {need : Nat → Nat → Bool} {s : Vote} (h : Reach n need s) : Inv n need s := by
  induction h with
  | start => exact ⟨rfl, fun p _ => coll_pos h0, fun p _ => rfl, fun p _ => rfl, (fun j r v h => by cases h), fun r _ t _ h => by simp [idle] at h⟩
  | step _ e ih => exact ih.step e

/-! ## C45 -/

/-- **C45.** For every number of processes, all local answers in all calls, and in every state the processes can get into in any order:
no two processes disagree on the root of a broadcast; the results a process has got are, call by call, whether some process needed
collision detection; the broadcasts it has taken part in for its finished calls are the same on every process; and some process can go on,
whatever number of calls has been finished (so that no process waits for ever). -/
theorem C45_same_decision {n : Nat} (h0 : 0 < n) {need : Nat → Nat → Bool} {s : Vote} (h : Reach n need s) :
    s.bad = false ∧ (∀ p < n, s.res p = (List.range (s.call p)).map fun t => decide (Needed n need t)) ∧
    (∀ p < n, ∃ l, s.hist p = ((List.range (s.call p)).flatMap fun t => rounds n (need t)) ++ l ∧ l <+: rounds n (need (s.call p))) := by
  have hi := h.inv h0
  refine ⟨hi.notBad, hi.res, fun p hp => ⟨_, hi.hist p hp, ?_⟩⟩
  rw [rounds_eq]
  exact ⟨(List.range (coll n (need (s.call p)))).drop (s.sd p), by
    have := hi.sd p hp
    conv_rhs => rw [← List.take_append_drop (s.sd p) (List.range (coll n (need (s.call p))))]
    rw [List.take_range, Nat.min_eq_left (by omega)]⟩

/-- **C45, same number of collective operations.** Two processes that have finished the same number of calls and are not within the next
have taken part in exactly the same broadcasts. -/
theorem C45_same_collectives {n : Nat} (h0 : 0 < n) {need : Nat → Nat → Bool} {s : Vote} (h : Reach n need s) {p q : Nat} (hp : p < n) (hq : q < n)
    (hc : s.call p = s.call q) (h1 : s.sd p = 0) (h2 : s.sd q = 0) : s.hist p = s.hist q ∧ s.res p = s.res q := by
  have hi := h.inv h0
  rw [hi.hist p hp, hi.hist q hq, hi.res p hp, hi.res q hq, hc, h1, h2]
  exact ⟨rfl, rfl⟩

/-- **C45, no deadlock.** As long as a process has not finished `T` calls, a process that has not either can go on. -/
theorem C45_progress {n : Nat} (h0 : 0 < n) {need : Nat → Nat → Bool} {s : Vote} (h : Reach n need s) {T p : Nat} (hp : p < n) (hT : s.call p < T) :
    ∃ q < n, s.call q < T ∧ ∃ s', Step n need s s' ∧ (s'.hist q).length = (s.hist q).length + 1 := by
  classical
  have hi := h.inv h0
  have hex : ∃ L, ∃ q < n, (s.hist q).length = L := ⟨_, p, hp, rfl⟩
  obtain ⟨q, hq, hL⟩ := Nat.find_spec hex
  have hmin : ∀ x < n, (s.hist q).length ≤ (s.hist x).length := fun x hx => by rw [hL]; exact Nat.find_min' hex ⟨x, hx, rfl⟩
  have hcall : ∀ x, x < n → (s.hist x).length = (s.hist q).length → s.call x < T := by
    intro x hx e
    by_contra hc
    have h1 := hmin p hp
    rw [← e, hi.count hp, hi.count hx] at h1
    have := hi.sd p hp
    have := total_mono (n := n) (need := need) (show s.call p < s.call x by omega)
    omega
  have hroot : ∀ x, x < n → (s.hist x).length = (s.hist q).length → s.sd x = x → ∃ q < n, s.call q < T ∧ ∃ s', Step n need s s' ∧
      (s'.hist q).length = (s.hist q).length + 1 := by
    intro x hx e hxx
    refine ⟨x, hx, hcall x hx e, _, Step.root hx hxx ?_, by rw [got_same.1, List.length_append]; rfl⟩
    cases hl : s.log (s.hist x).length with
    | none => rfl
    | some y =>
      obtain ⟨r, v⟩ := y
      obtain ⟨t, h1, h2, h3, h4⟩ := hi.log _ r v hl
      have hpl := place_unique (hi.sd x hx) h1 (by rw [← h2, hi.count hx])
      rw [← hpl.2, hxx] at h4; omega
  by_cases hqq : s.sd q = q
  · exact hroot q hq rfl hqq
  · have hr : s.sd q < n := (lt_coll.mp (hi.sd q hq)).1
    rcases Nat.lt_or_ge (s.hist q).length (s.hist (s.sd q)).length with hlt | hge
    · have hl := hi.arrived (s.sd q) hr (s.call q) (hi.sd q hq) (by rw [← hi.count hq]; exact hlt)
      rw [← hi.count hq] at hl
      exact ⟨q, hq, hcall q hq rfl, _, Step.other hq hqq hl rfl, by rw [got_same.1, List.length_append]; rfl⟩
    · have he : (s.hist (s.sd q)).length = (s.hist q).length := Nat.le_antisymm hge (hmin _ hr)
      have hpl := place_unique (hi.sd q hq) (hi.sd (s.sd q) hr) (by rw [← hi.count hq, ← hi.count hr, he])
      exact hroot (s.sd q) hr he hpl.2.symm

/-- the theorems are about something: with three processes of which the second needs collision detection, the second waits for the
first, which answers no, and both get on -/
example : ∃ s, Reach 3 (fun _ p => p == 1) s ∧ s.res 1 = [true] ∧ s.hist 1 = [0, 1] ∧ s.res 0 = [] ∧ s.call 0 < 1 := by
  have r0 := Reach.start (n := 3) (need := fun _ p => p == 1)
  have r1 := r0.step (Step.root (p := 0) (by decide) rfl rfl)
  have r2 := r1.step (Step.other (p := 1) (r := 0) (v := false) (by decide) (by decide) rfl rfl)
  have r3 := r2.step (Step.root (p := 1) (by decide) rfl rfl)
  exact ⟨_, r3, rfl, rfl, rfl, by decide⟩

end Verif.Mpi.Vote
