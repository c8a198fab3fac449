import Verif.Tester.Motion
import Verif.Drive.TableProps

/-! # Paths followed step by step, ends and hooks (C280, C284) -/
namespace Verif.Tester

open Verif.Mech

/-! ## Points and times -/

theorem sums_length (t : ℤ) (l : List ℤ) : (sums t l).length = l.length + 1 := by
  induction l generalizing t with
  | nil => rfl
  | cons d l ih => simp [sums, ih]

theorem more_length (d : ℤ) (n : ℕ) (t : ℤ) : (more d n t).length = n := by
  induction n generalizing t with
  | zero => rfl
  | succ n ih => simp [more, ih]

/-- Specification: the distance between two times is the step given, or the last one. -/
def dist (steps : List ℤ) (i : ℕ) : ℤ := (steps[i]?).getD (steps.getLastD 0)

theorem sums_step (t : ℤ) (l : List ℤ) (i : ℕ) (a : ℤ) (h : (sums t l)[i]? = some a) (hi : i < l.length) : (sums t l)[i + 1]? = some (a + (l[i]?).getD 0) := by
  induction l generalizing t i with
  | nil => simp at hi
  | cons d l ih =>
    cases i with
    | zero =>
      simp only [sums, List.getElem?_cons_zero, Option.some.injEq] at h
      subst h
      simp only [sums, List.getElem?_cons_succ, List.getElem?_cons_zero, Option.getD_some]
      cases l <;> simp [sums]
    | succ i =>
      simp only [sums, List.getElem?_cons_succ] at h ⊢
      exact ih (t + d) i h (by simpa using hi)

theorem more_step (d : ℤ) (n : ℕ) (t : ℤ) (i : ℕ) (a : ℤ) (h : (t :: more d n t)[i]? = some a) (hi : i < n) : (t :: more d n t)[i + 1]? = some (a + d) := by
  induction n generalizing t i with
  | zero => omega
  | succ n ih =>
    cases i with
    | zero => simp at h; subst h; simp [more]
    | succ i =>
      simp only [more, List.getElem?_cons_succ] at h ⊢
      exact ih (t + d) i h (by omega)

theorem times_length (steps : List ℤ) (n : ℕ) : (times steps n).length = max steps.length n + 1 := by
  unfold times
  rw [List.length_append, sums_length, more_length]
  omega

theorem times_zero (steps : List ℤ) (n : ℕ) : (times steps n)[0]? = some 0 := by
  unfold times
  cases steps <;> simp [sums]

theorem sums_last (t : ℤ) (l : List ℤ) : (sums t l)[l.length]? = some ((sums t l).getLastD 0) := by
  have hne : sums t l ≠ [] := by cases l <;> simp [sums]
  rw [List.getLastD_eq_getLast?, List.getLast?_eq_getElem?, sums_length]
  have : l.length < (sums t l).length := by rw [sums_length]; omega
  simp [List.getElem?_eq_getElem this]

theorem times_step (steps : List ℤ) (n i : ℕ) (a : ℤ) (h : (times steps n)[i]? = some a) (hi : i < max steps.length n) : (times steps n)[i + 1]? = some (a + dist steps i) := by
  unfold times at h ⊢
  by_cases hs : i < steps.length
  · rw [List.getElem?_append_left (by rw [sums_length]; omega)] at h ⊢
    · rw [sums_step 0 steps i a h hs]
      simp [dist, List.getElem?_eq_getElem hs]
  · have hl := sums_last 0 steps
    generalize (sums 0 steps).getLastD 0 = b at h hl ⊢
    have hd : dist steps i = steps.getLastD 0 := by unfold dist; rw [List.getElem?_eq_none (by omega)]; rfl
    have key : (b :: more (steps.getLastD 0) (n - steps.length) b)[i - steps.length]? = some a := by
      rcases Nat.eq_or_lt_of_le (not_lt.1 hs) with he | hlt
      · rw [← he, List.getElem?_append_left (by rw [sums_length]; omega), hl] at h
        rw [← he, Nat.sub_self]
        simpa using h
      · rw [List.getElem?_append_right (by rw [sums_length]; omega), sums_length] at h
        rw [show i - steps.length = (i - (steps.length + 1)) + 1 by omega, List.getElem?_cons_succ]
        exact h
    have := more_step _ _ _ _ _ key (by omega)
    rw [List.getElem?_append_right (by rw [sums_length]; omega), sums_length, hd]
    rw [List.getElem?_cons_succ] at this
    rw [show i + 1 - (steps.length + 1) = i - steps.length by omega]
    exact this

theorem pairwise_of_step {l : List ℤ} (h : ∀ i a b, l[i]? = some a → l[i + 1]? = some b → a < b) : l.Pairwise (· < ·) := by
  rw [← List.isChain_iff_pairwise]
  induction l with
  | nil => exact .nil
  | cons x l ih =>
    cases l with
    | nil => exact .singleton x
    | cons y l =>
      refine List.isChain_cons_cons.2 ⟨h 0 x y (by simp) (by simp), ih fun i a b ha hb => h (i + 1) a b (by simpa using ha) (by simpa using hb)⟩

/-- Specification: a configuration as a user would write it, with positive steps and not more of them than points. -/
structure Good (c : Cfg) : Prop where
  ids : c.ids.length = 2
  ne : c.steps ≠ []
  pos : ∀ d ∈ c.steps, 0 < d
  le : c.steps.length ≤ max c.dis.length c.rot.length

theorem dist_pos {c : Cfg} (h : Good c) (i : ℕ) : 0 < dist c.steps i := by
  unfold dist
  by_cases hi : i < c.steps.length
  · simp only [List.getElem?_eq_getElem hi, Option.getD_some]
    exact h.pos _ (List.getElem_mem hi)
  · rw [List.getElem?_eq_none (by omega)]
    rw [Option.getD_none, List.getLastD_eq_getLast?, List.getLast?_eq_getLast_of_ne_nil h.ne, Option.getD_some]
    exact h.pos _ (List.getLast_mem _)

/-- **C280**: the path starts at zero at time zero and goes to each point given, the shorter list being continued by its last value, in the number of steps given, the last one being repeated. -/
theorem C280_points {c : Cfg} (h : Good c) : ∃ p, c.postLoad = .ok p ∧ p.pts.length = max c.dis.length c.rot.length + 1 ∧ p.ts.length = p.pts.length ∧ p.pts[0]? = some 0 ∧ p.ts[0]? = some 0 ∧ p.ts.Pairwise (· < ·) ∧
    ∀ i < max c.dis.length c.rot.length, ∃ u t, p.pts[i + 1]? = some u ∧ p.ts[i]? = some t ∧ p.ts[i + 1]? = some (t + dist c.steps i) ∧
      (∀ x, c.dis[i]? = some x → u.1 = x) ∧ (c.dis.length ≤ i → u.1 = c.dis.getLastD 0) ∧ (∀ x, c.rot[i]? = some x → u.2 = x) ∧ (c.rot.length ≤ i → u.2 = c.rot.getLastD 0) := by
  have hpos : 0 < c.steps.length := List.length_pos_iff.2 h.ne
  have hmax : max c.steps.length (max c.dis.length c.rot.length) = max c.dis.length c.rot.length := max_eq_right h.le
  refine ⟨⟨points c.dis c.rot, times c.steps (max c.dis.length c.rot.length)⟩, ?_, by simp [points], by simp [points, times_length, hmax], by simp [points], times_zero _ _, ?_, ?_⟩
  · unfold Cfg.postLoad
    rw [if_neg (by rw [h.ids]; simp), if_neg (by rw [h.ids]; simp), if_neg, if_neg h.ne]
    rintro ⟨h1, h2⟩
    have := h.le
    rw [h1, h2] at this
    simp at this
    exact h.ne this
  · apply pairwise_of_step
    intro i a b ha hb
    dsimp only at ha hb
    have hi : i + 1 < (times c.steps (max c.dis.length c.rot.length)).length := by
      by_contra hc
      rw [List.getElem?_eq_none (by omega)] at hb
      simp at hb
    rw [times_length] at hi
    rw [times_step _ _ i a ha (by omega), Option.some.injEq] at hb
    have := dist_pos h i
    omega
  · intro i hi
    have hlt : i < (times c.steps (max c.dis.length c.rot.length)).length := by rw [times_length]; omega
    refine ⟨(pick c.dis i, pick c.rot i), _, ?_, List.getElem?_eq_getElem hlt, times_step _ _ i _ (List.getElem?_eq_getElem hlt) (by omega), ?_, ?_, ?_, ?_⟩
    · simp only [points, List.getElem?_cons_succ]
      rw [List.getElem?_map, List.getElem?_range hi]
      rfl
    · intro x hx; simp [pick, hx]
    · intro hx; unfold pick; rw [List.getElem?_eq_none hx]; rfl
    · intro x hx; simp [pick, hx]
    · intro hx; unfold pick; rw [List.getElem?_eq_none hx]; rfl

/-- A path of two displacements and one rotation for the examples. -/
def cfg0 : Cfg := ⟨[0, 1], [![-1, 0, 0], ![-1, 2, 0]], [![1, 0, 0]], [7, 8], true, [2], 0, 1⟩

theorem cfg0_good : Good cfg0 := ⟨rfl, by simp [cfg0], by simp [cfg0], by simp [cfg0]⟩

/-! ## Following -/

/-- Specification: `u` is the point of the path at the time `t`, i.e. each component is on the curve through its values. -/
def At (p : Path) (t : ℤ) (u : V6) : Prop :=
  ∀ k : Fin 3, Drive.OnCurve (p.ts.map fun k : ℤ => (k : ℝ)) (p.pts.map fun v => v.1 k) (t : ℝ) (u.1 k) ∧ Drive.OnCurve (p.ts.map fun k : ℤ => (k : ℝ)) (p.pts.map fun v => v.2 k) (t : ℝ) (u.2 k)

theorem comp_ok {p : Path} (hs : p.ts.Pairwise (· < ·)) (hl : p.ts.length = p.pts.length) (hne : p.ts ≠ []) (t : ℤ) (f : V6 → ℝ) (pos : ℕ) :
    ∃ y q, comp t p f pos = .ok (y, q) ∧ Drive.OnCurve (p.ts.map fun k : ℤ => (k : ℝ)) (p.pts.map f) (t : ℝ) y := by
  obtain ⟨y, q, h1, h2⟩ := Drive.interp_strict (p.ts.map fun k : ℤ => (k : ℝ)) (p.pts.map f) (by rw [List.pairwise_map]; exact hs.imp fun h => by exact_mod_cast h) (by simp [hl]) (by simpa using hne) (t : ℝ) pos
  exact ⟨y, q, by simp [comp, h1, num], h2⟩

theorem interp6_ok {p : Path} (hs : p.ts.Pairwise (· < ·)) (hl : p.ts.length = p.pts.length) (hne : p.ts ≠ []) (t : ℤ) (pos : ℕ) : ∃ u q, interp6 t p pos = .ok (u, q) ∧ At p t u := by
  obtain ⟨a, _, ha, ha'⟩ := comp_ok hs hl hne t (fun v => v.1 0) pos
  obtain ⟨b, _, hb, hb'⟩ := comp_ok hs hl hne t (fun v => v.1 1) pos
  obtain ⟨c, _, hc, hc'⟩ := comp_ok hs hl hne t (fun v => v.1 2) pos
  obtain ⟨d, _, hd, hd'⟩ := comp_ok hs hl hne t (fun v => v.2 0) pos
  obtain ⟨e, _, he, he'⟩ := comp_ok hs hl hne t (fun v => v.2 1) pos
  obtain ⟨f, _, hf, hf'⟩ := comp_ok hs hl hne t (fun v => v.2 2) pos
  refine ⟨_, _, by unfold interp6; rw [ha, Res.bind_ok, hb, Res.bind_ok, hc, Res.bind_ok, hd, Res.bind_ok, he, Res.bind_ok, hf, Res.bind_ok], ?_⟩
  intro k
  fin_cases k
  · exact ⟨ha', hd'⟩
  · exact ⟨hb', he'⟩
  · exact ⟨hc', hf'⟩

/-- Specification: displacements are in terms of the distance of the spheres if `displIsRel`. -/
noncomputable def scaled (c : Cfg) (L : ℝ) (u : V6) : V6 := (if c.rel then L • u.1 else u.1, u.2)

theorem scaled_sub (c : Cfg) (L : ℝ) (a b : V6) : scaled c L b + (if c.rel then L • (a - b).1 else (a - b).1, (a - b).2) = scaled c L a := by
  unfold scaled
  split_ifs <;> ext k <;> simp <;> ring

/-- Specification: the interaction of the steps is always the same object, between spheres of a total radius of `L`, with rotations or without. -/
def Steady (L : ℝ) (hr : Bool) (j : ℕ) (x : Option (ℕ × Geo)) : Prop := ∃ g : Geo, x = some (j, g) ∧ g.r1 ≠ 0 ∧ g.r2 ≠ 0 ∧ g.r1 + g.r2 = L ∧ g.hasRot = hr

/-- State after `k` steps. -/
structure Inv (c : Cfg) (p : Path) (L rw : ℝ) (hr : Bool) (j : ℕ) (k : ℕ) (s : St) : Prop where
  I : s.I = none ∨ s.I = some j
  step : s.step = k + 1
  at_ : At p k s.uu
  next : s.uNext = scaled c L s.uu
  dead : s.dead = false
  weight : hr = false → s.rotWeight = rw

/-- Specification: the bodies are moved by the difference of `u` and `v`, shear being applied by rotation as far as `rw` tells, and by displacement if there are rotations. -/
def Moves (c : Cfg) (rw0 : ℝ) (u v : V6) (dt : ℝ) (x : Option (ℕ × Geo)) (o : Out) : Prop :=
  ∃ j g rw hooks, x = some (j, g) ∧ rw = (if g.hasRot then 0 else rw0) ∧ o = .moved (move g (-1) (1 - c.idWeight) g.r1 rw dt (scaled c (g.r1 + g.r2) (v - u)).1 (v - u).2) (move g 1 c.idWeight g.r2 rw dt (scaled c (g.r1 + g.r2) (v - u)).1 (v - u).2) hooks

theorem step_inv {c : Cfg} {rw : ℝ} {hr : Bool} (hids : c.ids.length = 2) {p : Path} (hs : p.ts.Pairwise (· < ·)) (hl : p.ts.length = p.pts.length) {last : ℤ} (hlast : p.ts.getLast? = some last) {L : ℝ} (hL : L ≠ 0) {dt : ℝ} (hdt : dt ≠ 0) {j k : ℕ} (hk : (k : ℤ) ≤ last)
    {s : St} (h : Inv c p L rw hr j k s) {x : Option (ℕ × Geo)} (hx : Steady L hr j x) : ∃ s' o, s.action c p x dt = .ok (s', o) ∧ Inv c p L rw hr j (k + 1) s' ∧ s'.uTest = s.uNext ∧ Moves c rw s.uu s'.uu dt x o := by
  obtain ⟨g, rfl, h1, h2, hg, hgr⟩ := hx
  have hne : p.ts ≠ [] := by intro hc; rw [hc] at hlast; simp at hlast
  obtain ⟨u, q, hu, hat⟩ := interp6_ok hs hl hne (k + 1 : ℤ) s.pos
  have hgo : ∀ I, St.go { s with I := I } c p g dt = .ok (({ s with I := I } : St).apply c p g dt u q) := by
    intro I
    unfold St.go
    rw [hlast]
    dsimp only
    rw [h.step, if_neg (by omega), if_neg (by rw [hg]; tauto), hu, Res.bind_ok]
  have hact : s.action c p (some (j, g)) dt = .ok (({ s with I := some j } : St).apply c p g dt u q) := by
    unfold St.action
    rw [if_neg (by simp [hids])]
    rcases h.I with hI | hI
    · rw [hI]; exact hgo (some j)
    · have := hgo (some j)
      rw [hI]
      dsimp only
      rw [if_pos rfl]
      rw [← hI] at this ⊢
      exact this
  refine ⟨_, _, hact, ⟨Or.inr rfl, ?_, ?_, ?_, h.dead, ?_⟩, rfl, ?_⟩
  · show s.step + 1 = _
    rw [h.step]; push_cast; rfl
  · show At p ((k + 1 : ℕ) : ℤ) u
    push_cast; exact hat
  · show s.uNext + _ = scaled c L u
    rw [h.next, ← scaled_sub c L u s.uu, hg]
  · intro hf
    show (if g.hasRot then 0 else s.rotWeight) = rw
    rw [hgr, hf, if_neg (by simp)]
    exact h.weight hf
  · refine ⟨j, g, (if g.hasRot then 0 else s.rotWeight), hooksAt c p s.step, rfl, ?_, rfl⟩
    rcases hb : hr with _ | _
    · rw [h.weight hb]
    · rw [hgr, hb]; rfl

/-- **C280, part** (missing: more steps than points): as long as the interaction persists the deformation prescribed after `n` steps is that of the path at the time `n`, up to one step after its end, and in each step the bodies are moved by the difference. -/
theorem C280_follows_partial {c : Cfg} (h : Good c) {p : Path} (hp : c.postLoad = .ok p) {last : ℤ} (hlast : p.ts.getLast? = some last) {L : ℝ} (hL : L ≠ 0) {dt : ℝ} (hdt : dt ≠ 0) (rw : ℝ) {hr : Bool} {j : ℕ} {xs : List (Option (ℕ × Geo))}
    (hx : ∀ x ∈ xs, Steady L hr j x) (hn : (xs.length : ℤ) ≤ last + 1) : ∃ s os, run c p dt (St.init rw) xs = .ok (s, os) ∧ s.step = xs.length + 1 ∧ At p xs.length s.uu ∧ s.uNext = scaled c L s.uu ∧ s.dead = false ∧
      os.length = xs.length ∧ ∀ (i : ℕ) x o, xs[i]? = some x → os[i]? = some o → ∃ u v, At p i u ∧ At p (i + 1) v ∧ Moves c rw u v dt x o := by
  obtain ⟨p', hp', -, hl, hz, hz', hs, -⟩ := C280_points h
  rw [hp] at hp'
  cases hp'
  have key : ∀ (xs : List (Option (ℕ × Geo))) (k : ℕ) (s : St), Inv c p L rw hr j k s → (∀ x ∈ xs, Steady L hr j x) → (k : ℤ) + xs.length ≤ last + 1 → ∃ s' os, run c p dt s xs = .ok (s', os) ∧ Inv c p L rw hr j (k + xs.length) s' ∧ os.length = xs.length ∧
      ∀ (i : ℕ) x o, xs[i]? = some x → os[i]? = some o → ∃ u v, At p ((k + i : ℕ) : ℤ) u ∧ At p ((k + i + 1 : ℕ) : ℤ) v ∧ Moves c rw u v dt x o := by
    intro xs
    induction xs with
    | nil => intro k s hi _ _; exact ⟨s, [], rfl, hi, rfl, by simp⟩
    | cons x xs ih =>
      intro k s hi hxs hk
      simp only [List.length_cons, Nat.cast_add, Nat.cast_one] at hk
      obtain ⟨s1, o, ha, hi1, -, hm⟩ := step_inv h.ids hs hl hlast hL hdt (by omega) hi (hxs x (by simp))
      obtain ⟨s2, os, hr, hi2, hlen, hos⟩ := ih (k + 1) s1 hi1 (fun y hy => hxs y (by simp [hy])) (by push_cast; omega)
      refine ⟨s2, o :: os, ?_, ?_, by simp [hlen], ?_⟩
      · unfold run
        rw [hi.dead]
        simp only [Bool.false_eq_true, if_false]
        rw [ha, Res.bind_ok, hr, Res.bind_ok]
      · rw [List.length_cons, show k + (xs.length + 1) = k + 1 + xs.length by omega]; exact hi2
      · intro i y z hy hz
        cases i with
        | zero =>
          simp only [List.getElem?_cons_zero, Option.some.injEq] at hy hz
          subst hy; subst hz
          exact ⟨s.uu, s1.uu, hi.at_, hi1.at_, hm⟩
        | succ i =>
          simp only [List.getElem?_cons_succ] at hy hz
          have := hos i y z hy hz
          rw [show k + (i + 1) = k + 1 + i by omega]
          exact this
  have h0 : Inv c p L rw hr j 0 (St.init rw) := by
    refine ⟨Or.inl rfl, by simp [St.init], ?_, ?_, rfl, fun _ => rfl⟩
    · intro k
      have e1 : (p.ts.map fun k : ℤ => (k : ℝ)).head? = some 0 := by
        rw [List.head?_eq_getElem?, List.getElem?_map, hz']; simp
      have e2 : ∀ f : V6 → ℝ, f 0 = 0 → (p.pts.map f).head? = some 0 := by
        intro f hf
        rw [List.head?_eq_getElem?, List.getElem?_map, hz]; simp [hf]
      exact ⟨Or.inl ⟨0, e1, by simp, e2 _ rfl⟩, Or.inl ⟨0, e1, by simp, e2 _ rfl⟩⟩
    · unfold scaled St.init
      ext k <;> simp
  obtain ⟨s, os, hr, hi, hlen, hos⟩ := key xs 0 (St.init rw) h0 hx (by simpa using hn)
  refine ⟨s, os, hr, by have := hi.step; simpa using this, by have := hi.at_; simpa using this, hi.next, hi.dead, hlen, ?_⟩
  intro i x o hxi ho
  have := hos i x o hxi ho
  simpa using this

/-- At a time of the path its point is reached. -/
theorem at_point {p : Path} (hs : p.ts.Pairwise (· < ·)) (hl : p.ts.length = p.pts.length) {i : ℕ} {t : ℤ} {v u : V6} (ht : p.ts[i]? = some t) (hv : p.pts[i]? = some v) (h : At p t u) : u = v := by
  have hsr : (p.ts.map fun k : ℤ => (k : ℝ)).Pairwise (· < ·) := by rw [List.pairwise_map]; exact hs.imp fun h => by exact_mod_cast h
  have on : ∀ f : V6 → ℝ, Drive.OnCurve (p.ts.map fun k : ℤ => (k : ℝ)) (p.pts.map f) (t : ℝ) (f v) := by
    intro f
    have e1 : (p.ts.map fun k : ℤ => (k : ℝ))[i]? = some (t : ℝ) := by rw [List.getElem?_map, ht]; rfl
    have e2 : (p.pts.map f)[i]? = some (f v) := by rw [List.getElem?_map, hv]; rfl
    have hi : i < p.ts.length := (List.getElem?_eq_some_iff.1 ht).1
    rcases Nat.lt_or_ge (i + 1) p.ts.length with hlt | hge
    · right; right
      have hlt' : i + 1 < p.pts.length := by omega
      refine ⟨i, t, (p.ts[i + 1] : ℤ), f v, f p.pts[i + 1], e1, ?_, e2, ?_, le_refl _, ?_, ?_, by ring⟩
      · rw [List.getElem?_map, List.getElem?_eq_getElem hlt]; rfl
      · rw [List.getElem?_map, List.getElem?_eq_getElem hlt']; rfl
      · have := List.pairwise_iff_getElem.1 hs i (i + 1) hi hlt (by omega)
        rw [(List.getElem?_eq_some_iff.1 ht).2] at this
        exact_mod_cast this.le
      · have := List.pairwise_iff_getElem.1 hs i (i + 1) hi hlt (by omega)
        rw [(List.getElem?_eq_some_iff.1 ht).2] at this
        exact_mod_cast this
    · right; left
      refine ⟨t, ?_, le_refl _, ?_⟩
      · rw [List.getLast?_eq_getElem?, List.length_map, show p.ts.length - 1 = i by omega]; exact e1
      · rw [List.getLast?_eq_getElem?, List.length_map, show p.pts.length - 1 = i by omega]; exact e2
  have uq : ∀ (f : V6 → ℝ) (y : ℝ), Drive.OnCurve (p.ts.map fun k : ℤ => (k : ℝ)) (p.pts.map f) (t : ℝ) y → y = f v := fun f y hy => Drive.onCurve_unique hsr (by simp [hl]) hy (on f)
  ext k
  · exact uq (fun v => v.1 k) _ (h k).1
  · exact uq (fun v => v.2 k) _ (h k).2

/-- **C280**: after the steps given up to a point, the deformation is that of the point. -/
theorem C280_reaches {c : Cfg} (h : Good c) {p : Path} (hp : c.postLoad = .ok p) {L : ℝ} (hL : L ≠ 0) {dt : ℝ} (hdt : dt ≠ 0) (rw : ℝ) {hr : Bool} {j : ℕ} {xs : List (Option (ℕ × Geo))} (hx : ∀ x ∈ xs, Steady L hr j x) {i : ℕ} {v : V6}
    (ht : p.ts[i]? = some (xs.length : ℤ)) (hv : p.pts[i]? = some v) : ∃ s os, run c p dt (St.init rw) xs = .ok (s, os) ∧ s.uNext = scaled c L v := by
  obtain ⟨p', hp', -, hl, -, -, hs, -⟩ := C280_points h
  rw [hp] at hp'
  cases hp'
  have hi : i < p.ts.length := (List.getElem?_eq_some_iff.1 ht).1
  have hlast : p.ts.getLast? = some p.ts[p.ts.length - 1] := by rw [List.getLast?_eq_getElem?, List.getElem?_eq_getElem]
  have hle : (xs.length : ℤ) ≤ p.ts[p.ts.length - 1] := by
    rw [← (List.getElem?_eq_some_iff.1 ht).2]
    rcases Nat.lt_or_ge i (p.ts.length - 1) with hlt | hge
    · exact (List.pairwise_iff_getElem.1 hs i _ hi (by omega) hlt).le
    · have : i = p.ts.length - 1 := by omega
      subst this; exact le_refl _
  obtain ⟨s, os, hr, -, hat, hn, -⟩ := C280_follows_partial h hp hlast hL hdt rw hx (by omega)
  rw [at_point hs hl ht hv hat] at hn
  exact ⟨s, os, hr, hn⟩

example : ∃ p, cfg0.postLoad = .ok p ∧ p.ts = [0, 2, 4] ∧ p.pts[2]? = some ((![-1, 2, 0], ![1, 0, 0]) : V6) := by
  refine ⟨_, by unfold Cfg.postLoad; rw [if_neg (by simp [cfg0]), if_neg (by simp [cfg0]), if_neg (by simp [cfg0]), if_neg (by simp [cfg0])], ?_, ?_⟩
  · simp [cfg0, times, sums, more]
  · simp [cfg0, points, pick, List.range_succ]

example : Steady 3 false 5 (some (5, geo0)) := ⟨geo0, rfl, by norm_num [geo0], by norm_num [geo0], by norm_num [geo0], rfl⟩

/-- **C280**: after the path the bodies stop, and the engine dies unless there is something to be run. -/
theorem C280_end {c : Cfg} (hids : c.ids.length = 2) {p : Path} {last : ℤ} (hlast : p.ts.getLast? = some last) {s : St} (hs : last < s.step - 1) {j : ℕ} (hI : s.I = some j) (g : Geo) (dt : ℝ) :
    ∃ s', s.action c p (some (j, g)) dt = .ok (s', .done c.doneHook) ∧ s'.uTest = s.uNext ∧ s'.step = s.step ∧ (c.doneHook = 0 → s'.dead = true) ∧ (c.doneHook ≠ 0 → s'.dead = s.dead) := by
  refine ⟨(s.finish c).1, ?_, rfl, rfl, fun h => by simp [St.finish, h], fun h => by simp [St.finish, h]⟩
  unfold St.action
  rw [if_neg (by simp [hids]), hI]
  dsimp only
  rw [if_pos rfl]
  unfold St.go
  rw [hlast]
  dsimp only
  rw [if_pos hs]
  rfl

example : ∃ s : St, (4 : ℤ) < s.step - 1 ∧ s.I = some 5 := ⟨⟨some 5, 6, 0, 0, 0, 0, 1, false⟩, by norm_num, rfl⟩

/-- **C280**: nothing is done before there is an interaction, and it is an error if it vanishes or is replaced. -/
theorem C280_interaction {c : Cfg} (hids : c.ids.length = 2) (p : Path) (s : St) (dt : ℝ) :
    (s.I = none → s.action c p none dt = .ok (s, .nothing)) ∧ (∀ i, s.I = some i → s.action c p none dt = .throws) ∧ (∀ i j g, s.I = some i → i ≠ j → s.action c p (some (j, g)) dt = .throws) := by
  unfold St.action
  refine ⟨fun h => by rw [if_neg (by simp [hids]), h], fun i h => by rw [if_neg (by simp [hids]), h], fun i j g h hij => ?_⟩
  rw [if_neg (by simp [hids]), h]
  dsimp only
  rw [if_neg hij]

example : cfg0.ids.length = 2 := rfl

/-- **C280 needs not more steps than points**: with more of them the path is read past its end. -/
theorem C280_violated (g : Geo) (h1 : g.r1 ≠ 0) (h2 : g.r2 ≠ 0) (hL : g.r1 + g.r2 ≠ 0) (v : V3) (hs : List ℕ) (w rw dt : ℝ) (hdt : dt ≠ 0) (j : ℕ) : ∃ p, (Cfg.mk [0, 1] [v] [] hs true [1, 2] 0 w).postLoad = .ok p ∧
    run (Cfg.mk [0, 1] [v] [] hs true [1, 2] 0 w) p dt (St.init rw) [some (j, g), some (j, g)] = .ub := by
  refine ⟨⟨points [v] [], [0, 1, 3]⟩, ?_, ?_⟩
  · unfold Cfg.postLoad
    rw [if_neg (by simp), if_neg (by simp), if_neg (by simp), if_neg (by simp)]
    simp [times, sums, more]
  · have i1 : ∀ f : V6 → ℝ, comp 1 ⟨points [v] [], [0, 1, 3]⟩ f 0 = .ok (f 0 + (f (pick [v] 0, pick [] 0) - f 0) * ((1 - 0) / (1 - 0)), 0) := by
      intro f
      norm_num [comp, points, Drive.interp, Drive.at', Drive.sizeMinus2, Drive.search, Drive.between, num]
    have i2 : ∀ f : V6 → ℝ, comp 2 ⟨points [v] [], [0, 1, 3]⟩ f 0 = .ub := by
      intro f
      norm_num [comp, points, Drive.interp, Drive.at', Drive.sizeMinus2, Drive.search, num]
    have d : ¬ (dt = 0 ∨ g.r1 = 0 ∨ g.r2 = 0 ∨ g.r1 + g.r2 = 0) := by tauto
    simp only [run, St.init, St.action, St.go, interp6, i1, Res.bind_ok, d, if_false, St.apply]
    norm_num
    simp only [interp6, i2, Res.bind_ub, ite_self]

/-! ## Hooks -/

/-- **C284, part**: the hook of a point is run in the step which ends there, once and alone, and no hook is run in other steps.  Missing: it is not run when the point is reached, but one step before. -/
theorem C284_hooks_partial {c : Cfg} {p : Path} (hs : p.ts.Pairwise (· < ·)) :
    (∀ (i : ℕ) t k, p.ts[i + 1]? = some t → c.hooks[i]? = some k → k ≠ 0 → hooksAt c p t = [k]) ∧ (∀ t : ℤ, (∀ i : ℕ, p.ts[i + 1]? ≠ some t) → hooksAt c p t = []) := by
  have hst : p.ts.tail.Pairwise (· < ·) := hs.sublist (List.tail_sublist _)
  have htl : ∀ i : ℕ, p.ts.tail[i]? = p.ts[i + 1]? := by intro i; rw [List.getElem?_tail]
  have key : ∀ (ts : List ℤ) (hk : List ℕ), ts.Pairwise (· < ·) → (∀ (i : ℕ) t k, ts[i]? = some t → hk[i]? = some k → k ≠ 0 → ((ts.zip hk).filter fun th => t = th.1 ∧ th.2 ≠ 0).map Prod.snd = [k]) ∧
      (∀ t : ℤ, t ∉ ts → ((ts.zip hk).filter fun th => t = th.1 ∧ th.2 ≠ 0).map Prod.snd = []) := by
    intro ts
    induction ts with
    | nil => intro hk _; simp
    | cons a ts ih =>
      intro hk h
      rw [List.pairwise_cons] at h
      cases hk with
      | nil => simp
      | cons b hk =>
        obtain ⟨i1, i2⟩ := ih hk h.2
        constructor
        · intro i t k ht hkk hk0
          cases i with
          | zero =>
            simp only [List.getElem?_cons_zero, Option.some.injEq] at ht hkk
            subst ht; subst hkk
            rw [List.zip_cons_cons, List.filter_cons_of_pos (by simpa using hk0), List.map_cons, i2 a (fun hm => lt_irrefl a (h.1 a hm))]
          | succ i =>
            simp only [List.getElem?_cons_succ] at ht hkk
            have hlt := h.1 t (List.mem_of_getElem? ht)
            rw [List.zip_cons_cons, List.filter_cons_of_neg (by simp; omega)]
            exact i1 i t k ht hkk hk0
        · intro t ht
          simp only [List.mem_cons, not_or] at ht
          rw [List.zip_cons_cons, List.filter_cons_of_neg (by simp; intro h; exact absurd h ht.1)]
          exact i2 t ht.2
  obtain ⟨k1, k2⟩ := key p.ts.tail c.hooks hst
  refine ⟨fun i t k ht hk h0 => k1 i t k (by rw [htl]; exact ht) hk h0, fun t ht => k2 t fun hm => ?_⟩
  obtain ⟨i, hi⟩ := List.getElem?_of_mem hm
  exact ht i (by rw [← htl]; exact hi)

example : hooksAt cfg0 ⟨[], [0, 2, 4]⟩ 2 = [7] ∧ hooksAt cfg0 ⟨[], [0, 2, 4]⟩ 3 = [] := by decide

/-- **C284 fails**: the hook of a point is run when the deformation is that of half the way to it. -/
theorem C284_violated (g : Geo) (h1 : g.r1 ≠ 0) (h2 : g.r2 ≠ 0) (hL : g.r1 + g.r2 ≠ 0) (v : V3) (w rw dt : ℝ) (hdt : dt ≠ 0) (j : ℕ) : ∃ p s o b1 b2, (Cfg.mk [0, 1] [v] [] [7] false [2] 0 w).postLoad = .ok p ∧
    run (Cfg.mk [0, 1] [v] [] [7] false [2] 0 w) p dt (St.init rw) [some (j, g), some (j, g)] = .ok (s, [o, .moved b1 b2 [7]]) ∧ s.uTest = ((1 / 2 : ℝ) • v, 0) := by
  have i1 : ∀ f : V6 → ℝ, comp 1 ⟨points [v] [], [0, 2]⟩ f 0 = .ok (f 0 + (f (v, 0) - f 0) * ((1 - 0) / (2 - 0)), 0) := by
    intro f
    norm_num [comp, points, pick, Drive.interp, Drive.at', Drive.sizeMinus2, Drive.search, Drive.between, num]
  have i2 : ∀ f : V6 → ℝ, comp 2 ⟨points [v] [], [0, 2]⟩ f 0 = .ok (f (v, 0), 0) := by
    intro f
    norm_num [comp, points, pick, Drive.interp, Drive.at', Drive.sizeMinus2, num]
  have j1 : interp6 1 ⟨points [v] [], [0, 2]⟩ 0 = .ok (((1 / 2 : ℝ) • v, 0), 0) := by
    simp only [interp6, i1, Res.bind_ok]
    congr 3
    · funext k; fin_cases k <;> simp <;> ring
    · funext k; fin_cases k <;> simp
  have j2 : interp6 2 ⟨points [v] [], [0, 2]⟩ 0 = .ok ((v, 0), 0) := by
    simp only [interp6, i2, Res.bind_ok]
    congr 3
    · funext k; fin_cases k <;> rfl
    · funext k; fin_cases k <;> rfl
  have d : ¬ (dt = 0 ∨ g.r1 = 0 ∨ g.r2 = 0 ∨ g.r1 + g.r2 = 0) := by tauto
  have hpl : (Cfg.mk [0, 1] [v] [] [7] false [2] 0 w).postLoad = .ok ⟨points [v] [], [0, 2]⟩ := by
    unfold Cfg.postLoad
    rw [if_neg (by simp), if_neg (by simp), if_neg (by simp), if_neg (by simp)]
    simp [times, sums, more]
  have a1 : (St.init rw).action (Cfg.mk [0, 1] [v] [] [7] false [2] 0 w) ⟨points [v] [], [0, 2]⟩ (some (j, g)) dt =
      .ok (({ St.init rw with I := some j } : St).apply (Cfg.mk [0, 1] [v] [] [7] false [2] 0 w) ⟨points [v] [], [0, 2]⟩ g dt ((1 / 2 : ℝ) • v, 0) 0) := by
    simp only [St.action, St.init, St.go, d, if_false, j1, Res.bind_ok]
    simp
  have a2 : (({ St.init rw with I := some j } : St).apply (Cfg.mk [0, 1] [v] [] [7] false [2] 0 w) ⟨points [v] [], [0, 2]⟩ g dt ((1 / 2 : ℝ) • v, 0) 0).1.action (Cfg.mk [0, 1] [v] [] [7] false [2] 0 w) ⟨points [v] [], [0, 2]⟩ (some (j, g)) dt =
      .ok ((({ St.init rw with I := some j } : St).apply (Cfg.mk [0, 1] [v] [] [7] false [2] 0 w) ⟨points [v] [], [0, 2]⟩ g dt ((1 / 2 : ℝ) • v, 0) 0).1.apply (Cfg.mk [0, 1] [v] [] [7] false [2] 0 w) ⟨points [v] [], [0, 2]⟩ g dt (v, 0) 0) := by
    have e : (({ St.init rw with I := some j } : St).apply (Cfg.mk [0, 1] [v] [] [7] false [2] 0 w) ⟨points [v] [], [0, 2]⟩ g dt ((1 / 2 : ℝ) • v, 0) 0).1.step = 2 := rfl
    have e' : (({ St.init rw with I := some j } : St).apply (Cfg.mk [0, 1] [v] [] [7] false [2] 0 w) ⟨points [v] [], [0, 2]⟩ g dt ((1 / 2 : ℝ) • v, 0) 0).1.pos = 0 := rfl
    have e'' : (({ St.init rw with I := some j } : St).apply (Cfg.mk [0, 1] [v] [] [7] false [2] 0 w) ⟨points [v] [], [0, 2]⟩ g dt ((1 / 2 : ℝ) • v, 0) 0).1.I = some j := rfl
    generalize (({ St.init rw with I := some j } : St).apply (Cfg.mk [0, 1] [v] [] [7] false [2] 0 w) ⟨points [v] [], [0, 2]⟩ g dt ((1 / 2 : ℝ) • v, 0) 0).1 = s at e e' e''
    unfold St.action
    rw [if_neg (by simp), e'']
    dsimp only
    rw [if_pos rfl]
    unfold St.go
    rw [e, e', j2]
    simp only [List.getLast?_cons_cons, List.getLast?_singleton]
    rw [if_neg (by norm_num), if_neg d, Res.bind_ok]
  have hrun : ∀ s0 : St, s0.dead = false → ∀ xs, run (Cfg.mk [0, 1] [v] [] [7] false [2] 0 w) ⟨points [v] [], [0, 2]⟩ dt s0 (some (j, g) :: xs) = (s0.action (Cfg.mk [0, 1] [v] [] [7] false [2] 0 w) ⟨points [v] [], [0, 2]⟩ (some (j, g)) dt).bind fun q => (run (Cfg.mk [0, 1] [v] [] [7] false [2] 0 w) ⟨points [v] [], [0, 2]⟩ dt q.1 xs).bind fun r => .ok (r.1, q.2 :: r.2) := by
    intro s0 h0 xs
    conv_lhs => unfold run
    rw [h0]; rfl
  have hr := hrun (St.init rw) rfl [some (j, g)]
  have hr2 := hrun (({ St.init rw with I := some j } : St).apply (Cfg.mk [0, 1] [v] [] [7] false [2] 0 w) ⟨points [v] [], [0, 2]⟩ g dt ((1 / 2 : ℝ) • v, 0) 0).1 rfl []
  rw [a2, Res.bind_ok] at hr2
  rw [a1, Res.bind_ok, hr2] at hr
  refine ⟨⟨points [v] [], [0, 2]⟩, _, _, _, _, hpl, hr, ?_⟩
  show (0 : V6) + _ = _
  ext k <;> simp [St.init]

end Verif.Tester
