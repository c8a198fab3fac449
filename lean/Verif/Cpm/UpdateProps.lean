import Verif.Cpm.Update
import Verif.Cpm.Props
import Mathlib.LinearAlgebra.Matrix.Trace

/-!
# What the state updater reports

C297.
-/
namespace Verif.Cpm

open Verif.Mech

/-- A link belongs to a body. -/
def Link.of (l : Link) (i : ℕ) : Prop := l.id1 = i ∨ l.id2 = i

instance (l : Link) (i : ℕ) : Decidable (l.of i) := by unfold Link.of; infer_instance

/-- The links of a body. -/
def linksOf (ls : List Link) (i : ℕ) : List Link := ls.filter fun l => decide (l.of i)

/-- The cohesive ones. -/
def cohOf (ls : List Link) (i : ℕ) : List Link := (linksOf ls i).filter (·.cohesive)

theorem iter_add (m d : M3) (n : ℕ) : (· + d)^[n] m = m + (n : ℝ) • d := by
  induction n generalizing m with
  | zero => simp
  | succ n ih =>
    rw [Function.iterate_succ_apply, ih]
    push_cast
    rw [add_smul, one_smul]; abel

theorem addLink_stats (t : Tot) {l : Link} (h : l.id1 ≠ l.id2) (i : ℕ) :
    (addLink t l).stats i = if l.of i then (t.stats i).add l else t.stats i := by
  have e : (addLink t l).stats = Function.update (Function.update t.stats l.id1 ((t.stats l.id1).add l)) l.id2
      ((Function.update t.stats l.id1 ((t.stats l.id1).add l) l.id2).add l) := by
    unfold addLink
    dsimp only
    split_ifs <;> rfl
  rw [e, Function.update_of_ne h.symm]
  by_cases h2 : l.id2 = i
  · rw [if_pos (show l.of i from .inr h2)]
    subst h2; simp
  · rw [Function.update_of_ne (Ne.symm h2)]
    by_cases h1 : l.id1 = i
    · rw [if_pos (show l.of i from .inl h1)]
      subst h1; simp
    · have h3 : ¬ l.of i := fun hh => hh.elim h1 h2
      rw [Function.update_of_ne (Ne.symm h1), if_neg h3]

/-- The statistics of a body are those of its links. -/
theorem fold_stats (ls : List Link) (h : ∀ l ∈ ls, l.id1 ≠ l.id2) (t : Tot) (i : ℕ) :
    (ls.foldl addLink t).stats i =
      { nCoh := (t.stats i).nCoh + (cohOf ls i).length
        nLinks := (t.stats i).nLinks + (linksOf ls i).length
        dmgSum := (t.stats i).dmgSum + ((cohOf ls i).map fun l => 1 - l.resid).sum
        stress := (t.stats i).stress + ((linksOf ls i).map Link.stress).sum
        tensor := (t.stats i).tensor + (9 : ℝ) • ((cohOf ls i).map Link.incr).sum } := by
  induction ls generalizing t with
  | nil => simp [cohOf, linksOf]
  | cons l ls ih =>
    rw [List.foldl_cons, ih (fun x hx => h x (List.mem_cons_of_mem _ hx)), addLink_stats t (h l List.mem_cons_self)]
    by_cases ho : l.of i
    · have e1 : linksOf (l :: ls) i = l :: linksOf ls i := by unfold linksOf; rw [List.filter_cons_of_pos (by simpa using ho)]
      rw [if_pos ho]
      by_cases hc : l.cohesive = true
      · have e2 : cohOf (l :: ls) i = l :: cohOf ls i := by unfold cohOf; rw [e1, List.filter_cons_of_pos hc]
        have e3 : (t.stats i).add l = ⟨(t.stats i).nCoh + 1, (t.stats i).nLinks + 1, (t.stats i).dmgSum + (1 - l.resid),
            (t.stats i).stress + l.stress, (t.stats i).tensor + (9 : ℝ) • l.incr⟩ := by
          unfold Stats.add
          dsimp only
          rw [if_pos hc, iter_add]
          norm_num
        rw [e1, e2, e3]
        simp only [List.length_cons, List.map_cons, List.sum_cons, smul_add, Stats.mk.injEq]
        refine ⟨by omega, by omega, by ring, by abel, by abel⟩
      · have e2 : cohOf (l :: ls) i = cohOf ls i := by unfold cohOf; rw [e1, List.filter_cons_of_neg hc]
        have e3 : (t.stats i).add l = { (t.stats i) with nLinks := (t.stats i).nLinks + 1, stress := (t.stats i).stress + l.stress } := by
          unfold Stats.add
          dsimp only
          rw [if_neg hc]
        rw [e1, e2, e3]
        simp only [List.length_cons, List.map_cons, List.sum_cons, Stats.mk.injEq]
        refine ⟨trivial, by omega, trivial, by abel, trivial⟩
    · have e1 : linksOf (l :: ls) i = linksOf ls i := by unfold linksOf; rw [List.filter_cons_of_neg (by simpa using ho)]
      have e2 : cohOf (l :: ls) i = cohOf ls i := by unfold cohOf; rw [e1]
      rw [if_neg ho, e1, e2]

theorem update_ok {bs : List (Option Bd)} {ls : List Link} {m : Option ℝ} {u : Upd} (h : update bs ls m = .ok u) :
    u = { states := bs.mapIdx fun i b => b.bind fun b => if b.cpm then some (bodyOut ((ls.foldl addLink ⟨fun _ => Stats.zero, 0, 0, m⟩).stats i) b) else none
          avg := open Classical in if (ls.foldl addLink ⟨fun _ => Stats.zero, 0, 0, m⟩).num + ((bs.filterMap id).filter (·.cpm)).foldl (fun x b => x + 1 / 2 * (b.broken : ℝ)) 0 = 0 then none else
            some ((ls.foldl addLink ⟨fun _ => Stats.zero, 0, 0, m⟩).sum / ((ls.foldl addLink ⟨fun _ => Stats.zero, 0, 0, m⟩).num + ((bs.filterMap id).filter (·.cpm)).foldl (fun x b => x + 1 / 2 * (b.broken : ℝ)) 0))
          maxOm := (ls.foldl addLink ⟨fun _ => Stats.zero, 0, 0, m⟩).maxOm } := by
  unfold update at h
  split_ifs at h
  all_goals cases h
  all_goals simp_all

/-- The state of a body after the updater. -/
theorem update_state {bs : List (Option Bd)} {ls : List Link} {m : Option ℝ} {u : Upd} (h : update bs ls m = .ok u) {i : ℕ} {b : Bd}
    (hb : bs[i]? = some (some b)) (hc : b.cpm = true) :
    u.states[i]? = some (some (bodyOut ((ls.foldl addLink ⟨fun _ => Stats.zero, 0, 0, m⟩).stats i) b)) := by
  rw [update_ok h]
  dsimp only
  rw [List.getElem?_mapIdx, hb]
  simp [hc]

/-- The damage of a body is the mean over the cohesive contacts it has, and over those it lost, which count as wholly damaged; it lies between nothing and
one if residual strengths do. -/
theorem C297_mean {bs : List (Option Bd)} {ls : List Link} {m : Option ℝ} {u : Upd} (h : update bs ls m = .ok u) (hne : ∀ l ∈ ls, l.id1 ≠ l.id2) {i : ℕ} {b : Bd}
    (hb : bs[i]? = some (some b)) (hc : b.cpm = true) :
    ∃ o, u.states[i]? = some (some o) ∧
      o.normDmg * ((cohOf ls i).length + b.broken) = ((cohOf ls i).map fun l => 1 - l.resid).sum + (if (cohOf ls i).length + b.broken = 0 then 0 else (b.broken : ℝ)) ∧
      ((cohOf ls i).length + b.broken = 0 → o.normDmg = 0) ∧
      ((∀ l ∈ ls, 0 ≤ l.resid ∧ l.resid ≤ 1) → 0 ≤ o.normDmg ∧ o.normDmg ≤ 1) := by
  refine ⟨_, update_state h hb hc, ?_⟩
  rw [fold_stats ls hne]
  simp only [bodyOut, Stats.zero, zero_add]
  by_cases hz : (cohOf ls i).length + b.broken = 0
  · have h1 : cohOf ls i = [] := List.eq_nil_of_length_eq_zero (by omega)
    rw [if_neg (by omega), if_pos hz, h1]
    refine ⟨by simp, fun _ => rfl, fun _ => ⟨le_refl _, by norm_num⟩⟩
  · have hp : 0 < (cohOf ls i).length + b.broken := Nat.pos_of_ne_zero hz
    have hp' : (0 : ℝ) < ((cohOf ls i).length : ℝ) + b.broken := by exact_mod_cast hp
    rw [if_pos hp, if_neg hz]
    push_cast
    refine ⟨by rw [div_mul_cancel₀ _ hp'.ne'], fun h => absurd h hz, fun hr => ?_⟩
    have hs : ∀ xs : List Link, (∀ l ∈ xs, 0 ≤ l.resid ∧ l.resid ≤ 1) → 0 ≤ (xs.map fun l => 1 - l.resid).sum ∧ (xs.map fun l => 1 - l.resid).sum ≤ (xs.length : ℝ) := by
      intro xs
      induction xs with
      | nil => intro _; simp
      | cons x xs ih =>
        intro hx
        obtain ⟨a1, a2⟩ := ih fun l hl => hx l (List.mem_cons_of_mem _ hl)
        obtain ⟨b1, b2⟩ := hx x List.mem_cons_self
        rw [List.map_cons, List.sum_cons, List.length_cons]
        push_cast
        constructor <;> linarith
    obtain ⟨a1, a2⟩ := hs (cohOf ls i) fun l hl => hr l (List.mem_of_mem_filter (List.mem_of_mem_filter hl))
    have a3 : (0 : ℝ) ≤ b.broken := Nat.cast_nonneg _
    exact ⟨div_nonneg (by linarith) hp'.le, (div_le_one hp').2 (by linarith)⟩

/-- The stress of a body is the sum of those of all its contacts, in proportion to the volume of a sphere, and is symmetric. -/
theorem C297_stress {bs : List (Option Bd)} {ls : List Link} {m : Option ℝ} {u : Upd} (h : update bs ls m = .ok u) (hne : ∀ l ∈ ls, l.id1 ≠ l.id2) {i : ℕ} {b : Bd}
    (hb : bs[i]? = some (some b)) (hc : b.cpm = true) :
    ∃ o, u.states[i]? = some (some o) ∧
      (b.radius = none → o.stress = .ok ((linksOf ls i).map Link.stress).sum) ∧
      (∀ r, r ≠ 0 → b.radius = some r → ∃ S, o.stress = .ok S ∧ (2 * (4 / 3 * Real.pi * r ^ 3)) • S = (62 / 100 : ℝ) • ((linksOf ls i).map Link.stress).sum) ∧
      ((linksOf ls i).map Link.stress).sum.transpose = ((linksOf ls i).map Link.stress).sum := by
  refine ⟨_, update_state h hb hc, ?_, ?_, ?_⟩
  · intro hr
    rw [fold_stats ls hne]
    simp only [bodyOut, hr, Stats.zero, zero_add]
  · intro r hr0 hr
    rw [fold_stats ls hne]
    simp only [bodyOut, hr, Stats.zero, zero_add]
    rw [if_neg hr0]
    refine ⟨_, rfl, ?_⟩
    rw [smul_smul]
    congr 1
    have := Real.pi_pos
    field_simp
    try ring
  · generalize linksOf ls i = xs
    induction xs with
    | nil => simp
    | cons l xs ih =>
      rw [List.map_cons, List.sum_cons, Matrix.transpose_add, ih]
      congr 1
      unfold Link.stress outer
      ext a c
      simp [Matrix.transpose_apply]
      ring

/-- The average is over the cohesive contacts which exist and half of the number of those which bodies lost. -/
theorem C297_average {bs : List (Option Bd)} {ls : List Link} {m : Option ℝ} {u : Upd} (h : update bs ls m = .ok u) {a : ℝ} (ha : u.avg = some a) :
    a * ((ls.filter (·.cohesive)).length + (((bs.filterMap id).filter (·.cpm)).map fun b => (b.broken : ℝ)).sum / 2) = ((ls.filter (·.cohesive)).map (·.resid)).sum := by
  have e1 : ∀ (xs : List Link) (t : Tot), (xs.foldl addLink t).num = t.num + ((xs.filter (·.cohesive)).length : ℝ) ∧
      (xs.foldl addLink t).sum = t.sum + ((xs.filter (·.cohesive)).map (·.resid)).sum := by
    intro xs
    induction xs with
    | nil => intro t; simp
    | cons x xs ih =>
      intro t
      rw [List.foldl_cons, (ih _).1, (ih _).2]
      unfold addLink
      dsimp only
      by_cases hc : x.cohesive = true
      · rw [if_pos hc, List.filter_cons_of_pos hc]
        simp only [List.length_cons, List.map_cons, List.sum_cons]
        push_cast
        constructor <;> ring
      · rw [if_neg hc, List.filter_cons_of_neg hc]
        exact ⟨rfl, rfl⟩
  have e2 : ∀ (xs : List Bd) (y : ℝ), xs.foldl (fun x b => x + 1 / 2 * (b.broken : ℝ)) y = y + (xs.map fun b => (b.broken : ℝ)).sum / 2 := by
    intro xs
    induction xs with
    | nil => intro y; simp
    | cons x xs ih =>
      intro y
      rw [List.foldl_cons, ih, List.map_cons, List.sum_cons]; ring
  rw [update_ok h] at ha
  dsimp only at ha
  rw [(e1 ls _).1, (e1 ls _).2, e2] at ha
  split_ifs at ha with hz
  cases ha
  rw [zero_add, zero_add, zero_add] at *
  rw [div_mul_cancel₀ _ hz]

/-- Two bodies with a contact which lost half of its strength; the first one lost another contact. -/
noncomputable def exLinks : List Link := [⟨0, 1, ![1, 0, 0], 1, 0, 1, true, 1 / 2, 1 / 2⟩]

/-- The bodies. -/
noncomputable def exBodies : List (Option Bd) := [some ⟨true, 1, none⟩, some ⟨true, 0, some 1⟩]

example : ∃ u, update exBodies exLinks none = .ok u ∧ (∀ l ∈ exLinks, l.id1 ≠ l.id2) ∧ (cohOf exLinks 0).length = 1 ∧ u.avg = some (1 / 3) := by
  have h0 : ¬ ∃ l ∈ exLinks, exBodies.length ≤ l.id1 ∨ exBodies.length ≤ l.id2 := by
    simp [exLinks, exBodies]
  refine ⟨_, by unfold update; rw [if_neg h0], by simp [exLinks], by simp [cohOf, linksOf, exLinks, Link.of], ?_⟩
  have e : (exBodies.filterMap id).filter (·.cpm) = [⟨true, 1, none⟩, ⟨true, 0, some 1⟩] := rfl
  dsimp only
  rw [e]
  norm_num [exLinks, addLink]

/-- The trace of the damage tensor, for unit normals, is twenty-seven times the damage of existing contacts over their number and that of lost ones, and is not
the damage of the body, as it is said to be, unless none of its contacts is damaged or lost, or by chance. -/
theorem C297_violated_trace {bs : List (Option Bd)} {ls : List Link} {m : Option ℝ} {u : Upd} (h : update bs ls m = .ok u) (hne : ∀ l ∈ ls, l.id1 ≠ l.id2)
    (hn : ∀ l ∈ ls, sqNorm l.n = 1) {i : ℕ} {b : Bd} (hb : bs[i]? = some (some b)) (hc : b.cpm = true) (hp : 0 < (cohOf ls i).length + b.broken) :
    ∃ o, u.states[i]? = some (some o) ∧ o.tensor.trace * ((cohOf ls i).length + b.broken) = 27 * ((cohOf ls i).map fun l => 1 - l.resid).sum ∧
      o.normDmg * ((cohOf ls i).length + b.broken) = ((cohOf ls i).map fun l => 1 - l.resid).sum + b.broken := by
  refine ⟨_, update_state h hb hc, ?_⟩
  rw [fold_stats ls hne]
  simp only [bodyOut, Stats.zero, zero_add]
  rw [if_pos hp, if_pos hp]
  push_cast
  have hp' : (0 : ℝ) < ((cohOf ls i).length : ℝ) + b.broken := by exact_mod_cast hp
  refine ⟨?_, by rw [div_mul_cancel₀ _ hp'.ne']⟩
  rw [Matrix.trace_smul, Matrix.trace_smul]
  have ht : ∀ xs : List Link, (∀ l ∈ xs, sqNorm l.n = 1) → (xs.map Link.incr).sum.trace = 3 * (xs.map fun l => 1 - l.resid).sum := by
    intro xs
    induction xs with
    | nil => intro _; simp
    | cons x xs ih =>
      intro hx
      rw [List.map_cons, List.sum_cons, Matrix.trace_add, ih fun l hl => hx l (List.mem_cons_of_mem _ hl), List.map_cons, List.sum_cons]
      have h1 := hx x List.mem_cons_self
      unfold sqNorm dot at h1
      have h2 : x.incr.trace = -(1 - x.resid) * (3 / 2) * 3 + (1 - x.resid) * (15 / 2) * (x.n 0 * x.n 0 + x.n 1 * x.n 1 + x.n 2 * x.n 2) := by
        unfold Link.incr outer
        simp [Matrix.trace, Fin.sum_univ_three]
        ring
      rw [h2, h1]; ring
  rw [ht (cohOf ls i) fun l hl => hn l (List.mem_of_mem_filter (List.mem_of_mem_filter hl))]
  simp only [smul_eq_mul]
  field_simp
  ring

example : ∀ l ∈ exLinks, sqNorm l.n = 1 := by
  intro l hl
  simp only [exLinks, List.mem_singleton] at hl
  rw [hl]
  norm_num [sqNorm, dot]
  rfl

/-- The largest damage is never reported: the attribute is NaN until it is set by the user, and the comparison with NaN keeps NaN. -/
theorem C297_violated_max {bs : List (Option Bd)} {ls : List Link} {u : Upd} (h : update bs ls none = .ok u) : u.maxOm = none := by
  rw [update_ok h]
  dsimp only
  have : ∀ (xs : List Link) (t : Tot), t.maxOm = none → (xs.foldl addLink t).maxOm = none := by
    intro xs
    induction xs with
    | nil => intro t ht; exact ht
    | cons x xs ih =>
      intro t ht
      rw [List.foldl_cons]
      apply ih
      unfold addLink
      dsimp only
      split_ifs
      · rw [ht]; rfl
      · exact ht
  exact this ls _ rfl

/-- Set to a number, it is the largest of that and of the damages of cohesive contacts, so that it does not go down from one run to the next. -/
theorem C297_max_partial {bs : List (Option Bd)} {ls : List Link} {a : ℝ} {u : Upd} (h : update bs ls (some a) = .ok u) :
    ∃ x, u.maxOm = some x ∧ a ≤ x ∧ (∀ l ∈ ls, l.cohesive = true → l.omega ≤ x) ∧ (x = a ∨ ∃ l ∈ ls, l.cohesive = true ∧ x = l.omega) := by
  rw [update_ok h]
  dsimp only
  have : ∀ (xs : List Link) (t : Tot) (a : ℝ), t.maxOm = some a → ∃ x, (xs.foldl addLink t).maxOm = some x ∧ a ≤ x ∧
      (∀ l ∈ xs, l.cohesive = true → l.omega ≤ x) ∧ (x = a ∨ ∃ l ∈ xs, l.cohesive = true ∧ x = l.omega) := by
    intro xs
    induction xs with
    | nil => intro t a ht; exact ⟨a, ht, le_refl _, by simp, .inl rfl⟩
    | cons y xs ih =>
      intro t a ht
      rw [List.foldl_cons]
      by_cases hc : y.cohesive = true
      · have e : (addLink t y).maxOm = some (if a < y.omega then y.omega else a) := by
          unfold addLink; dsimp only; rw [if_pos hc, ht]; rfl
        obtain ⟨x, h1, h2, h3, h4⟩ := ih _ _ e
        have hm : a ≤ (if a < y.omega then y.omega else a) ∧ y.omega ≤ (if a < y.omega then y.omega else a) := by
          split_ifs with hl
          · exact ⟨hl.le, le_refl _⟩
          · exact ⟨le_refl _, not_lt.1 hl⟩
        refine ⟨x, h1, hm.1.trans h2, ?_, ?_⟩
        · intro l hl hlc
          rcases List.mem_cons.1 hl with rfl | hl
          · exact hm.2.trans h2
          · exact h3 l hl hlc
        · rcases h4 with h4 | ⟨l, hl, h5⟩
          · split_ifs at h4
            · exact .inr ⟨y, List.mem_cons_self, hc, h4⟩
            · exact .inl h4
          · exact .inr ⟨l, List.mem_cons_of_mem _ hl, h5⟩
      · have e : (addLink t y).maxOm = some a := by
          unfold addLink; dsimp only; rw [if_neg hc, ht]
        obtain ⟨x, h1, h2, h3, h4⟩ := ih _ _ e
        refine ⟨x, h1, h2, ?_, ?_⟩
        · intro l hl hlc
          rcases List.mem_cons.1 hl with rfl | hl
          · exact absurd hlc hc
          · exact h3 l hl hlc
        · rcases h4 with h4 | ⟨l, hl, h5⟩
          · exact .inl h4
          · exact .inr ⟨l, List.mem_cons_of_mem _ hl, h5⟩
  exact this ls _ a rfl

/-- Contacts without cohesion count as broken cohesive ones whenever they open, so that a body which never had cohesive contacts is reported wholly damaged. -/
theorem C297_violated_count {L : Law} {per : Bool} {P : Par} {s : St} {g : ScGeom} {a b : V3} {o : Out} (h : go L per P s g a b = .ok o) (hc : P.cohesive = false)
    (hN : 0 < o.st.epsN) {ls : List Link} {bd : Bd} (hbk : bd.broken = o.nBroken) (i : ℕ) (hne : ∀ l ∈ ls, l.id1 ≠ l.id2) (hn : ∀ l ∈ ls, l.cohesive = false) (m : Option ℝ) :
    o.keep = false ∧ o.nBroken = 1 ∧ (bodyOut ((ls.foldl addLink ⟨fun _ => Stats.zero, 0, 0, m⟩).stats i) bd).normDmg = 1 := by
  have h1 : o.keep = false ∧ o.nBroken = 1 := by
    obtain ⟨_, t, _, ⟨_, ho⟩ | ⟨hb, ho⟩⟩ := go_ok h
    · rw [ho]; exact ⟨rfl, rfl⟩
    · exfalso
      rw [ho] at hN
      exact hb ⟨hN, .inr (by rw [hc]; simp)⟩
  refine ⟨h1.1, h1.2, ?_⟩
  have hz : cohOf ls i = [] := by
    unfold cohOf
    rw [List.filter_eq_nil_iff]
    intro l hl
    rw [hn l (List.mem_of_mem_filter hl)]; simp
  rw [fold_stats ls hne, hz]
  simp [bodyOut, Stats.zero, hbk, h1.2]

/-- Such a contact: stretched, without cohesion. -/
example (L : Law) : ∃ o, go L false { par 1 with cohesive := false } St.init (geomOf (-1) 0) 0 0 = .ok o ∧ 0 < o.st.epsN := by
  obtain ⟨t, ht⟩ : ∃ t, material L { par 1 with cohesive := false } St.init 1 0 = .ok t := by
    unfold material
    rw [if_neg (by norm_num [par])]
    dsimp only
    rw [if_neg (by simp), Res.bind_ok, if_neg (by simp)]
    exact ⟨_, rfl⟩
  have hr : (geomOf (-1) 0).rotate St.init.epsT + (1 / ({ par 1 with cohesive := false } : Par).refLen) • (geomOf (-1) 0).shearInc = 0 := by
    apply v3_ext <;> simp [ScGeom.rotate, geomOf, St.init]
  have hn : -(-({ par 1 with cohesive := false } : Par).refPD + (geomOf (-1) 0).pd) / ({ par 1 with cohesive := false } : Par).refLen = 1 := by simp [par, geomOf]
  have he : t.epsN = 1 := by rw [(C293_largest ht).2.1]; norm_num [par]
  unfold go
  rw [if_neg (by norm_num [par]), hr, hn, ht, Res.bind_ok]
  split_ifs
  · exact ⟨_, rfl, by rw [he]; norm_num⟩
  · exact ⟨_, rfl, by dsimp only; rw [he]; norm_num⟩

end Verif.Cpm
