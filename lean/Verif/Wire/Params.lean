import Verif.Wire.Props

/-! # Rupture, and parameters of wires (C276, C277, C278, C279) -/
namespace Verif.Wire

open Verif.Mech

/-! ## C276 -/

/-- New links are linked as told, as those of `ip2`. -/
def Follows (mk : ℝ → Bool → Res Phys) : Prop := ∀ d b p, mk d b = .ok p → p.linked = b

theorem build_linked {m1 m2 : Mat} {c : Choice} {l0 dl d : ℝ} {b : Bool} {p : Phys} (h : build m1 m2 c l0 dl d b = .ok p) : p.linked = b := by
  unfold build at h
  split at h
  · simp at h
  · rename_i q qs _
    rcases hq : quot q.2 (q.1 + dl) with k | _ | _
    · rw [hq, Res.bind_ok] at h
      unfold finish at h
      split at h
      · simp at h
      · rename_i a as _
        rcases hf : firstPart m1 m2 dl (elastic m1 c (l0 + dl) k (q :: qs)).1 a as with f | _ | _
        · rw [hf, Res.bind_ok] at h
          rcases hs : slopes f.2 with ks | _ | _
          · rw [hs, Res.bind_ok] at h
            simp only [Res.ok.injEq] at h
            rw [← h]
          · rw [hs] at h; simp at h
          · rw [hs] at h; simp at h
        · rw [hf] at h; simp at h
        · rw [hf] at h; simp at h
    · rw [hq] at h; simp at h
    · rw [hq] at h; simp at h

/-- **C276**: what `Ip2` makes is linked as the iteration tells. -/
theorem C276_follows (R : ℤ → ℕ → ℝ) (now : ℤ) (g : Rng) (id1 id2 : ℤ) (r1 r2 : ℝ) (m1 m2 : Mat) :
    Follows fun d b => (ip2 R now g b id1 id2 r1 r2 d m1 m2).bind fun r => .ok r.1 := by
  intro d b p h
  dsimp only at h
  unfold ip2 at h
  rcases hb : build m1 m2 (choose id1 id2 m1 m2) (r1 + r2 - d) (shift R now m1 m2 (r1 + r2 - d) g).1 d b with q | _ | _
  · rw [hb] at h
    simp only [Res.bind_ok, Res.ok.injEq] at h
    rw [← h]
    exact build_linked hb
  · rw [hb] at h; simp at h
  · rw [hb] at h; simp at h

theorem step_ok {mk : ℝ → Bool → Res Phys} {thr : ℕ} {s : Link} {d : ℝ} {r : Link × Out} (h : s.step mk thr d = .ok r) :
    ∃ p x, s.parts mk thr d = .ok p ∧ p.law d = .ok x ∧ r = s.after x := by
  unfold Link.step at h
  rcases hp : s.parts mk thr d with p | _ | _
  · rw [hp, Res.bind_ok] at h
    rcases hl : p.law d with x | _ | _
    · rw [hl, Res.bind_ok] at h
      simp only [Res.ok.injEq] at h
      exact ⟨p, x, rfl, hl, h.symm⟩
    · rw [hl] at h; simp at h
    · rw [hl] at h; simp at h
  · rw [hp] at h; simp at h
  · rw [hp] at h; simp at h

/-- How many links broke. -/
def ruptures (l : List Out) : ℕ := (l.filter fun o => match o with | .breaks => true | _ => false).length

/-- **C276**: `numBrokenLinks` is increased by the number of ruptures. -/
theorem C276_count {mk : ℝ → Bool → Res Phys} {thr : ℕ} {ds : List ℝ} : ∀ {s s' : Link} {l : List Out}, Link.run mk thr ds s = .ok (s', l) → s'.broken = s.broken + ruptures l := by
  induction ds with
  | nil =>
    intro s s' l h
    simp only [Link.run, Res.ok.injEq, Prod.mk.injEq] at h
    rw [← h.1, ← h.2]; rfl
  | cons d ds ih =>
    intro s s' l h
    unfold Link.run at h
    rcases hs : s.step mk thr d with r | _ | _
    · rw [hs, Res.bind_ok] at h
      rcases hr : Link.run mk thr ds r.1 with q | _ | _
      · rw [hr, Res.bind_ok] at h
        simp only [Res.ok.injEq, Prod.mk.injEq] at h
        rw [← h.1, ← h.2, ih hr]
        obtain ⟨p, x, -, -, rfl⟩ := step_ok hs
        unfold Link.after
        rcases x.2 with _ | _ | f
        · simp [ruptures]
        · simp [ruptures]; omega
        · simp [ruptures]
      · rw [hr] at h; simp at h
      · rw [hr] at h; simp at h
    · rw [hs] at h; simp at h
    · rw [hs] at h; simp at h

/-- From the threshold on, a pair without link gets none. -/
theorem no_link {mk : ℝ → Bool → Res Phys} (hmk : Follows mk) {thr : ℕ} {s s' : Link} {o : Out} {d : ℝ} (hp : s.phys = none) (hi : thr ≤ s.iter) (h : s.step mk thr d = .ok (s', o)) :
    o = .gone ∧ s'.phys = none ∧ thr ≤ s'.iter := by
  obtain ⟨p, x, hm, hl, e⟩ := step_ok h
  unfold Link.parts at hm
  rw [hp] at hm
  dsimp only at hm
  have hk := hmk _ _ _ hm
  rw [show decide (s.iter < thr) = false by simp [hi]] at hk
  rw [show p.law d = .ok (p, .gone) by unfold Phys.law; rw [if_pos hk]] at hl
  simp only [Res.ok.injEq] at hl
  rw [← hl] at e
  simp only [Link.after, Prod.mk.injEq] at e
  rw [e.1, e.2]
  exact ⟨rfl, rfl, by simp only; omega⟩

theorem no_links {mk : ℝ → Bool → Res Phys} (hmk : Follows mk) {thr : ℕ} {ds : List ℝ} : ∀ {s s' : Link} {l : List Out}, s.phys = none → thr ≤ s.iter → Link.run mk thr ds s = .ok (s', l) → ∀ o ∈ l, o = .gone := by
  induction ds with
  | nil =>
    intro s s' l _ _ h
    simp only [Link.run, Res.ok.injEq, Prod.mk.injEq] at h
    rw [← h.2]; simp
  | cons d ds ih =>
    intro s s' l hp hi h
    unfold Link.run at h
    rcases hs : s.step mk thr d with r | _ | _
    · rw [hs, Res.bind_ok] at h
      obtain ⟨h1, h2, h3⟩ := no_link hmk hp hi (o := r.2) (s' := r.1) hs
      rcases hr : Link.run mk thr ds r.1 with q | _ | _
      · rw [hr, Res.bind_ok] at h
        simp only [Res.ok.injEq, Prod.mk.injEq] at h
        have := ih h2 h3 (s' := q.1) (l := q.2) hr
        rw [← h.2]
        intro o ho
        rcases List.mem_cons.1 ho with rfl | ho
        · exact h1
        · exact this o ho
      · rw [hr] at h; simp at h
      · rw [hr] at h; simp at h
    · rw [hs] at h; simp at h
    · rw [hs] at h; simp at h

/-- **C276**: from the threshold on, after a rupture there is no force and no rupture, whatever the distances are. -/
theorem C276_forever {mk : ℝ → Bool → Res Phys} (hmk : Follows mk) {thr : ℕ} {ds : List ℝ} : ∀ {s s' : Link} {l : List Out}, thr ≤ s.iter → Link.run mk thr ds s = .ok (s', l) →
    (∃ fs : List ℝ, ∃ n, l = fs.map Out.force ++ List.replicate n .gone) ∨ ∃ fs : List ℝ, ∃ n, l = fs.map Out.force ++ .breaks :: List.replicate n .gone := by
  induction ds with
  | nil =>
    intro s s' l _ h
    simp only [Link.run, Res.ok.injEq, Prod.mk.injEq] at h
    exact .inl ⟨[], 0, by rw [← h.2]; rfl⟩
  | cons d ds ih =>
    intro s s' l hi h
    unfold Link.run at h
    rcases hs : s.step mk thr d with r | _ | _
    · rw [hs, Res.bind_ok] at h
      rcases hr : Link.run mk thr ds r.1 with q | _ | _
      · rw [hr, Res.bind_ok] at h
        simp only [Res.ok.injEq, Prod.mk.injEq] at h
        rw [← h.2]
        have hit : thr ≤ r.1.iter ∧ ((∃ f, r.2 = .force f) ∨ r.1.phys = none) := by
          obtain ⟨p, x, -, -, rfl⟩ := step_ok hs
          unfold Link.after
          rcases x.2 with _ | _ | f
          · exact ⟨by simp only; omega, .inr rfl⟩
          · exact ⟨by simp only; omega, .inr rfl⟩
          · exact ⟨by simp only; omega, .inl ⟨f, rfl⟩⟩
        rcases hit with ⟨hi', ⟨f, hf⟩ | hn⟩
        · rcases ih hi' (s' := q.1) (l := q.2) hr with ⟨fs, n, e⟩ | ⟨fs, n, e⟩
          · exact .inl ⟨f :: fs, n, by rw [e, hf]; rfl⟩
          · exact .inr ⟨f :: fs, n, by rw [e, hf]; rfl⟩
        · have hall := no_links hmk hn hi' (s' := q.1) (l := q.2) hr
          have hrep : q.2 = List.replicate q.2.length .gone := List.eq_replicate_iff.2 ⟨rfl, hall⟩
          rw [hrep]
          rcases r.2 with _ | _ | f
          · exact .inl ⟨[], q.2.length + 1, rfl⟩
          · exact .inr ⟨[], q.2.length, rfl⟩
          · exact .inl ⟨[f], q.2.length, rfl⟩
      · rw [hr] at h; simp at h
      · rw [hr] at h; simp at h
    · rw [hs] at h; simp at h
    · rw [hs] at h; simp at h

/-- A wire which is broken at the second step. -/
example : ∃ s, Link.run (fun _ b => .ok { wire with linked := b }) 1 [-4, 0] { iter := 1, phys := some wire, broken := 0 } = .ok (s, [.breaks, .gone]) ∧ Follows fun _ b => .ok { wire with linked := b } := by
  refine ⟨{ iter := 3, phys := none, broken := 1 }, ?_, ?_⟩
  · have h : wire.law (-4) = .ok ({ wire with linked := false }, .breaks) := by norm_num [Phys.law, wire]
    have h2 : Phys.law { wire with linked := false } 0 = .ok ({ wire with linked := false }, .gone) := by simp [Phys.law]
    simp [Link.run, Link.step, Link.parts, Link.after, h, h2]
  · intro d b p h
    simp only [Res.ok.injEq] at h
    rw [← h]

/-! ## C277 -/

/-- A curve of strains and stresses as asked for. -/
structure Curve (ss : List Pt) : Prop where
  two : 2 ≤ ss.length
  strain : ∀ p ∈ ss, 0 < p.1
  stress : ∀ p ∈ ss, 0 < p.2
  sorted : List.Pairwise (fun a b : Pt => a.1 < b.1) ss

theorem slopes_of (ps : List Pt) : ∀ p : Pt, List.Pairwise (fun a b : Pt => b.1 < a.1) (p :: ps) → ∃ ks, slopes (p :: ps) = .ok ks ∧ SlopesOf (p :: ps) ks := by
  induction ps with
  | nil => intro p _; exact ⟨[], rfl, .one p⟩
  | cons q ps ih =>
    intro p h
    obtain ⟨h1, h2⟩ := List.pairwise_cons.1 h
    obtain ⟨ks, e, hk⟩ := ih q h2
    have hq : q.1 < p.1 := h1 q (by simp)
    refine ⟨(q.2 - p.2) / (q.1 - p.1) :: ks, ?_, .cons p q ps ks hk⟩
    have hne : -q.1 + p.1 ≠ 0 := by intro h; linarith
    have hne' : q.1 - p.1 ≠ 0 := by intro h; linarith
    unfold slopes quot
    rw [if_neg hne, Res.bind_ok, e, Res.bind_ok]
    congr 2
    rw [div_eq_div_iff hne hne']
    ring

/-- **C277, part**: for a single wire, or a double twist with a curve of its own (types 0 and 1), points of the curve are strain times length and stress times area, the elastic stiffness is that of the first point,
and the link is new with a sorted curve, so that C274 applies.  Missing: type 2 (below), double twists of type 0, values which are not checked. -/
theorem C277_curve_partial {m1 m2 : Mat} {c : Choice} (hc : Curve c.ss) (ha : 0 < c.area) (h1 : m1.type ≠ 2) (h2 : m2.type ≠ 2) (ht : c.twist = true → m1.type ≠ 0) {l0 : ℝ} (hl : 0 < l0) (d : ℝ) :
    ∃ p, build m1 m2 c l0 0 d true = .ok p ∧ Fresh p (c.ss.map fun q => (-(q.1 * l0), -(q.2 * c.area))) ∧ p.initD = d ∧ ∀ q ∈ c.ss.head?, p.kn = q.2 * c.area / (q.1 * l0) := by
  obtain ⟨area, ss, twist⟩ := c
  dsimp only at *
  rcases ss with _ | ⟨q, qs⟩
  · have := hc.two; simp at this
  have e : dfPoint (l0 + 0) 0 area = fun x => (-(x.1 * l0), -(x.2 * area)) := by funext x; simp [dfPoint]
  have hq1 := hc.strain q (by simp)
  have hq2 := hc.stress q (by simp)
  have hsorted : List.Pairwise (fun a b : Pt => b.1 < a.1) (0 :: (q :: qs).map fun q => (-(q.1 * l0), -(q.2 * area))) := by
    rw [List.pairwise_cons]
    constructor
    · intro x hx
      obtain ⟨y, hy, rfl⟩ := List.mem_map.1 hx
      have := mul_pos (hc.strain y hy) hl
      simp only [Prod.fst_zero]
      linarith
    · rw [List.pairwise_map]
      exact hc.sorted.imp fun h => by simp only; nlinarith
  obtain ⟨ks, ek, hk⟩ := slopes_of (qs.map fun q => (-(q.1 * l0), -(q.2 * area))) (-(q.1 * l0), -(q.2 * area)) (List.pairwise_cons.1 hsorted).2
  have hel : ∀ k ps, elastic m1 ⟨area, q :: qs, twist⟩ (l0 + 0) k ps = (k, ps) := by
    intro k ps
    unfold elastic
    rw [if_neg]
    rintro ⟨h1, h2⟩
    exact ht h1 h2
  have hne : q.1 * l0 ≠ 0 := (mul_pos hq1 hl).ne'
  have hb : build m1 m2 ⟨area, q :: qs, twist⟩ l0 0 d true = .ok
      { initD := d, linked := true, twist := twist, pts := 0 :: (q :: qs).map (fun q => (-(q.1 * l0), -(q.2 * area))), ks := q.2 * area / (q.1 * l0) :: ks, kn := q.2 * area / (q.1 * l0), plastD := 0, limit := 0, dL := 0 } := by
    unfold build
    simp only [List.map_cons, e]
    have hquot : quot (-(q.2 * area)) (-(q.1 * l0) + 0) = .ok (q.2 * area / (q.1 * l0)) := by
      unfold quot
      rw [if_neg (by simpa using hne), add_zero, neg_div_neg_eq]
    rw [hquot, Res.bind_ok, hel]
    unfold finish
    dsimp only
    unfold firstPart
    rw [if_neg h1, if_neg h2, Res.bind_ok]
    dsimp only
    rw [ek, Res.bind_ok]
  refine ⟨_, hb, ⟨rfl, rfl, rfl, by simp, hsorted, ?_, ?_⟩, rfl, ?_⟩
  · have := SlopesOf.cons 0 _ _ _ hk
    simp only [Prod.snd_zero, Prod.fst_zero, sub_zero, neg_div_neg_eq] at this
    exact this
  · exact div_pos (mul_pos hq2 ha) (mul_pos hq1 hl)
  · intro x hx
    simp at hx
    rw [← hx]

/-- **C277, part**: for type 2 with a shift `dl`, and `lambdaF` between 0 and 1, the curve is moved by the shift, and begins with a line from the origin which meets it at the force `lambdaF` times that of the first point;
it is sorted, so that C274 applies. -/
theorem C277_shifted_partial {m1 m2 : Mat} {c : Choice} (hc : Curve c.ss) (ha : 0 < c.area) (h1 : m1.type = 2) (hF : 0 < m1.lambdaF) (hF1 : m1.lambdaF ≤ 1) {l0 dl : ℝ} (hl : 0 < l0) (hdl : 0 ≤ dl) (d : ℝ) :
    ∃ p qs, build m1 m2 c l0 dl d true = .ok p ∧ Fresh p qs ∧ p.initD = d ∧ (∀ q ∈ c.ss.head?, p.kn = q.2 * c.area / (q.1 * (l0 + dl))) ∧
      (∃ pre, qs = pre ++ c.ss.map (fun q => (-(q.1 * (l0 + dl)) - dl, -(q.2 * c.area))) ∧ ∀ q ∈ c.ss.head?, (m1.lambdaF = 1 → pre = []) ∧ (m1.lambdaF < 1 → pre = [(-dl - m1.lambdaF * (q.1 * (l0 + dl)), -(m1.lambdaF * (q.2 * c.area)))])) := by
  obtain ⟨area, ss, twist⟩ := c
  dsimp only at *
  rcases ss with _ | ⟨q, qs⟩
  · have := hc.two; simp at this
  have hL : 0 < l0 + dl := by linarith
  have e : dfPoint (l0 + dl) dl area = fun x => (-(x.1 * (l0 + dl)) - dl, -(x.2 * area)) := by funext x; simp [dfPoint]
  have hq1 := hc.strain q (by simp)
  have hq2 := hc.stress q (by simp)
  have hqL := mul_pos hq1 hL
  have hne : q.1 * (l0 + dl) ≠ 0 := hqL.ne'
  have hmono : List.Pairwise (fun a b : Pt => b.1 < a.1) ((q :: qs).map fun q => (-(q.1 * (l0 + dl)) - dl, -(q.2 * area))) := by
    rw [List.pairwise_map]
    exact hc.sorted.imp fun h => by simp only; nlinarith
  have hbelow : ∀ x ∈ (q :: qs).map (fun q : Pt => ((-(q.1 * (l0 + dl)) - dl, -(q.2 * area)) : Pt)), x.1 ≤ -(q.1 * (l0 + dl)) - dl := by
    intro x hx
    rw [List.map_cons, List.mem_cons] at hx
    rcases hx with rfl | hx
    · exact le_refl _
    · obtain ⟨y, hy, rfl⟩ := List.mem_map.1 hx
      have : q.1 < y.1 := (List.pairwise_cons.1 hc.sorted).1 y hy
      have := mul_lt_mul_of_pos_right this hL
      simp only
      linarith
  have hel : ∀ k ps, elastic m1 ⟨area, q :: qs, twist⟩ (l0 + dl) k ps = (k, ps) := by
    intro k ps
    unfold elastic
    rw [if_neg]
    rintro ⟨-, h2⟩
    omega
  have hquot : quot (-(q.2 * area)) (-(q.1 * (l0 + dl)) - dl + dl) = .ok (q.2 * area / (q.1 * (l0 + dl))) := by
    unfold quot
    rw [if_neg (by simpa using hne), sub_add_cancel, neg_div_neg_eq]
  -- the additional point
  have hex : extra m1 dl (-(q.1 * (l0 + dl)) - dl, -(q.2 * area)) = (-dl - m1.lambdaF * (q.1 * (l0 + dl)), -(m1.lambdaF * (q.2 * area))) := by
    unfold extra
    ext
    · simp only; ring
    · simp only; ring
  have hxneg : -dl - m1.lambdaF * (q.1 * (l0 + dl)) < 0 := by nlinarith [mul_pos hF hqL]
  have hk0 : quot (extra m1 dl (-(q.1 * (l0 + dl)) - dl, -(q.2 * area))).2 (extra m1 dl (-(q.1 * (l0 + dl)) - dl, -(q.2 * area))).1 = .ok (-(m1.lambdaF * (q.2 * area)) / (-dl - m1.lambdaF * (q.1 * (l0 + dl)))) := by
    unfold quot
    rw [hex, if_neg hxneg.ne]
  have hgen : ∀ pts : List Pt, pts = (if m1.lambdaF < 1 then (-dl - m1.lambdaF * (q.1 * (l0 + dl)), -(m1.lambdaF * (q.2 * area))) :: (q :: qs).map (fun q => (-(q.1 * (l0 + dl)) - dl, -(q.2 * area))) else (q :: qs).map (fun q => (-(q.1 * (l0 + dl)) - dl, -(q.2 * area)))) →
      ∀ ks, slopes pts = .ok ks → build m1 m2 ⟨area, q :: qs, twist⟩ l0 dl d true = .ok
      { initD := d, linked := true, twist := twist, pts := 0 :: pts, ks := -(m1.lambdaF * (q.2 * area)) / (-dl - m1.lambdaF * (q.1 * (l0 + dl))) :: ks, kn := q.2 * area / (q.1 * (l0 + dl)), plastD := 0, limit := 0, dL := dl } := by
    intro pts hpts ks hks
    unfold build
    simp only [List.map_cons, e]
    rw [hquot, Res.bind_ok, hel]
    unfold finish
    dsimp only
    unfold firstPart withExtra
    rw [if_pos h1, hk0, Res.bind_ok, hex, Res.bind_ok]
    dsimp only
    rw [List.map_cons] at hpts
    rw [← hpts, hks, Res.bind_ok]
  have hkn : 0 < q.2 * area / (q.1 * (l0 + dl)) := div_pos (mul_pos hq2 ha) hqL
  by_cases hlt : m1.lambdaF < 1
  · have hs1 : List.Pairwise (fun a b : Pt => b.1 < a.1) ((-dl - m1.lambdaF * (q.1 * (l0 + dl)), -(m1.lambdaF * (q.2 * area))) :: (q :: qs).map fun q => (-(q.1 * (l0 + dl)) - dl, -(q.2 * area))) := by
      rw [List.pairwise_cons]
      refine ⟨fun x hx => ?_, hmono⟩
      have := hbelow x hx
      simp only
      nlinarith
    have hs0 : List.Pairwise (fun a b : Pt => b.1 < a.1) (0 :: (-dl - m1.lambdaF * (q.1 * (l0 + dl)), -(m1.lambdaF * (q.2 * area))) :: (q :: qs).map fun q => (-(q.1 * (l0 + dl)) - dl, -(q.2 * area))) := by
      rw [List.pairwise_cons]
      refine ⟨fun x hx => ?_, hs1⟩
      simp only [Prod.fst_zero]
      rcases List.mem_cons.1 hx with rfl | hx
      · exact hxneg
      · have := hbelow x hx
        linarith
    obtain ⟨ks, ek, hk⟩ := slopes_of _ _ hs1
    refine ⟨_, _, hgen _ (by rw [if_pos hlt]) ks ek, ⟨rfl, rfl, rfl, by simp, hs0, ?_, hkn⟩, rfl, ?_, [(-dl - m1.lambdaF * (q.1 * (l0 + dl)), -(m1.lambdaF * (q.2 * area)))], rfl, ?_⟩
    · have := SlopesOf.cons 0 _ _ _ hk
      simpa only [Prod.snd_zero, Prod.fst_zero, sub_zero] using this
    · intro x hx
      simp at hx
      rw [← hx]
    · intro x hx
      simp at hx
      subst hx
      exact ⟨fun h => absurd h hlt.ne, fun _ => rfl⟩
  · have hF' : m1.lambdaF = 1 := le_antisymm hF1 (not_lt.1 hlt)
    have hs0 : List.Pairwise (fun a b : Pt => b.1 < a.1) (0 :: (q :: qs).map fun q => (-(q.1 * (l0 + dl)) - dl, -(q.2 * area))) := by
      rw [List.pairwise_cons]
      refine ⟨fun x hx => ?_, hmono⟩
      simp only [Prod.fst_zero]
      have := hbelow x hx
      linarith
    obtain ⟨ks, ek, hk⟩ := slopes_of (qs.map fun q => (-(q.1 * (l0 + dl)) - dl, -(q.2 * area))) (-(q.1 * (l0 + dl)) - dl, -(q.2 * area)) hmono
    refine ⟨_, _, hgen _ (by rw [if_neg hlt]; rfl) ks ek, ⟨rfl, rfl, rfl, by simp, hs0, ?_, hkn⟩, rfl, ?_, [], rfl, ?_⟩
    · have := SlopesOf.cons 0 _ _ _ hk
      simp only [Prod.snd_zero, Prod.fst_zero, sub_zero] at this
      have e1 : -(m1.lambdaF * (q.2 * area)) / (-dl - m1.lambdaF * (q.1 * (l0 + dl))) = -(q.2 * area) / (-(q.1 * (l0 + dl)) - dl) := by rw [hF', one_mul, one_mul]; congr 1; ring
      rw [e1]
      exact this
    · intro x hx
      simp at hx
      rw [← hx]
    · intro x hx
      exact ⟨fun _ => rfl, fun h => absurd h hlt⟩

example : Curve [(1 / 100, 200), (1 / 10, 300)] := by
  refine ⟨by simp, ?_, ?_, ?_⟩
  · intro p hp; simp at hp; rcases hp with rfl | rfl <;> norm_num
  · intro p hp; simp at hp; rcases hp with rfl | rfl <;> norm_num
  · norm_num

/-- **C277 violated**: a double twist of type 0 whose second strain, reduced by `lambdaEps`, is less than the first breaks within its elastic part. -/
theorem C277_violated_twist {m : Mat} (h0 : m.type = 0) {e1 s1 e2 s2 : ℝ} (h1 : 0 < e1) (hle : m.lambdaEps * e2 < e1) {area l0 : ℝ} (hl : 0 < l0) (d : ℝ) :
    ∃ p, build m m ⟨area, [(e1, s1), (e2, s2)], true⟩ l0 0 d true = .ok p ∧ ∀ x, -(e1 * l0) < x → x < -(m.lambdaEps * e2 * l0) → ∃ p', p.law (d + x) = .ok (p', .breaks) := by
  have hne : e1 * l0 ≠ 0 := (mul_pos h1 hl).ne'
  have hlt := mul_lt_mul_of_pos_right hle hl
  have h2 : m.type ≠ 2 := by omega
  have hb : ∃ p, build m m ⟨area, [(e1, s1), (e2, s2)], true⟩ l0 0 d true = .ok p ∧ p.linked = true ∧ p.initD = d ∧ ∃ a b : Pt, p.pts = [0, a, b] ∧ b.1 = -(m.lambdaEps * e2 * l0) := by
    unfold build
    simp only [List.map_cons, List.map_nil, dfPoint]
    unfold quot
    rw [if_neg (by simpa using hne), Res.bind_ok]
    unfold elastic
    rw [if_pos ⟨rfl, h0⟩]
    unfold finish twistPts
    dsimp only
    unfold firstPart
    rw [if_neg h2, if_neg h2, Res.bind_ok]
    simp only [List.map_cons, List.map_nil]
    unfold slopes slopes quot
    rw [if_neg (by intro h; apply hlt.ne; linarith), Res.bind_ok, Res.bind_ok, Res.bind_ok]
    exact ⟨_, rfl, rfl, rfl, _, _, rfl, by simp only; ring⟩
  obtain ⟨p, e, hl1, hd, a, b, hp, hb⟩ := hb
  refine ⟨p, e, fun x hx1 hx2 => ⟨{ p with linked := false }, ?_⟩⟩
  unfold Phys.law
  rw [if_neg (by simp [hl1]), hp]
  dsimp only
  rw [if_pos]
  simp only [List.getLastD_cons, List.getLastD_nil]
  rw [hb, hd]
  linarith

/-- A material, before `postLoad`. -/
noncomputable def mat0 (ty : ℕ) (dt : Bool) (ssDT : List Pt) : Mat where
  id := 0
  diameter := 2
  type := ty
  ss := [(1 / 100, 200), (1 / 10, 300)]
  ssDT := ssDT
  isDT := dt
  lambdaEps := 47 / 100
  lambdak := 73 / 100
  seed := -1
  lambdau := 1 / 5
  lambdaF := 1
  poisson := 3 / 10
  area := 0

example : (mat0 0 true []).type = 0 ∧ (mat0 0 true []).lambdaEps * (1 / 50) < 1 / 100 := by norm_num [mat0]

/-- **C277 violated**: a curve of double twists which begins with zero strain and stress is accepted, and its first stiffness is not a number. -/
theorem C277_violated_zero (R : ℤ → ℕ → ℝ) (now : ℤ) (g : Rng) (b : Bool) (r1 r2 d : ℝ) :
    ∃ m, (mat0 1 true [(0, 0), (1 / 10, 300)]).postLoad = .ok m ∧ ip2 R now g b 4 5 r1 r2 d m m = .ub := by
  refine ⟨(mat0 1 true [(0, 0), (1 / 10, 300)]).section, ?_, ?_⟩
  · norm_num [Mat.postLoad, mat0, checkType, checkDT, Mat.section]
  · have hs : shift R now (mat0 1 true [(0, 0), (1 / 10, 300)]).section (mat0 1 true [(0, 0), (1 / 10, 300)]).section (r1 + r2 - d) g = (0, g) := by simp [shift, Mat.section, mat0]
    have hc : choose 4 5 (mat0 1 true [(0, 0), (1 / 10, 300)]).section (mat0 1 true [(0, 0), (1 / 10, 300)]).section = ⟨(mat0 1 true [(0, 0), (1 / 10, 300)]).section.area * 2, [(0, 0), (1 / 10, 300)], true⟩ := by
      simp [choose, Mat.section, mat0]
    unfold ip2
    rw [hs, hc]
    simp [build, dfPoint, quot]

/-- **C277 violated**: a double twist asked for after construction is not checked; without a curve of its own, reading it is undefined. -/
theorem C277_violated_late (R : ℤ → ℕ → ℝ) (now : ℤ) (g : Rng) (b : Bool) (r1 r2 d : ℝ) :
    ∃ m m', (mat0 1 false []).postLoad = .ok m ∧ m.set (.isDT true) = .ok m' ∧ ip2 R now g b 4 5 r1 r2 d m' m' = .ub := by
  refine ⟨(mat0 1 false []).section, (mat0 1 true []).section, ?_, rfl, ?_⟩
  · norm_num [Mat.postLoad, mat0, checkType, Mat.section]
  · have hc : choose 4 5 (mat0 1 true []).section (mat0 1 true []).section = ⟨(mat0 1 true []).section.area * 2, [], true⟩ := by
      simp [choose, Mat.section, mat0]
    unfold ip2
    rw [hc]
    simp [build]

/-- **C277 violated**: setting the diameter of a material does not change the area of sections, nor a link of wires of this material. -/
theorem C277_violated_diameter (R : ℤ → ℕ → ℝ) (now : ℤ) (g : Rng) (b : Bool) (r1 r2 d : ℝ) (m : Mat) (hm : m.isDT = false) (x : ℝ) :
    ∃ m', m.set (.diameter x) = .ok m' ∧ m'.diameter = x ∧ ip2 R now g b 4 5 r1 r2 d m' m' = ip2 R now g b 4 5 r1 r2 d m m := by
  refine ⟨{ m with diameter := x }, rfl, rfl, ?_⟩
  have hc : choose 4 5 { m with diameter := x } { m with diameter := x } = choose 4 5 m m := by simp [choose, hm]
  have hs : shift R now { m with diameter := x } { m with diameter := x } (r1 + r2 - d) g = shift R now m m (r1 + r2 - d) g := rfl
  have ht : (choose 4 5 m m).twist = false := by simp [choose, hm]
  have hb : ∀ l0 dl, build { m with diameter := x } { m with diameter := x } (choose 4 5 m m) l0 dl d b = build m m (choose 4 5 m m) l0 dl d b := by
    intro l0 dl
    unfold build elastic
    simp only [ht]
    rfl
  unfold ip2
  rw [hc, hs, hb]

/-! ## C278 -/

/-- **C278, part**: the order of bodies does not matter for wires of one material, or of two of different diameters, if none has random shifts; the thinner wire decides.  Missing: equal diameters, and random shifts. -/
theorem C278_swap_partial (R : ℤ → ℕ → ℝ) (now : ℤ) (g : Rng) (b : Bool) (id1 id2 : ℤ) (r1 r2 d : ℝ) {m1 m2 : Mat} (hid : m1.id = m2.id → m1 = m2) (hd : m1.diameter = m2.diameter → m1 = m2)
    (h1 : m1.type ≠ 2) (h2 : m2.type ≠ 2) : ip2 R now g b id1 id2 r1 r2 d m1 m2 = ip2 R now g b id2 id1 r2 r1 d m2 m1 := by
  by_cases h : m1 = m2
  · subst h
    have hc : choose id1 id2 m1 m1 = choose id2 id1 m1 m1 := by unfold choose; rw [abs_sub_comm]
    unfold ip2
    rw [hc, add_comm r1 r2]
  · have hn : m1.id ≠ m2.id := fun e => h (hid e)
    have hdn : m1.diameter ≠ m2.diameter := fun e => h (hd e)
    have hc : choose id1 id2 m1 m2 = choose id2 id1 m2 m1 ∧ (choose id1 id2 m1 m2).twist = false := by
      unfold choose
      rw [if_neg hn, if_neg (Ne.symm hn)]
      rcases lt_or_gt_of_ne hdn with hlt | hlt
      · rw [if_pos hlt.le, if_neg (not_le.2 hlt)]; exact ⟨rfl, rfl⟩
      · rw [if_neg (not_le.2 hlt), if_pos hlt.le]; exact ⟨rfl, rfl⟩
    have hs : ∀ l0, shift R now m1 m2 l0 g = shift R now m2 m1 l0 g := by intro l0; unfold shift; simp [h1, h2]
    have hb : ∀ l0 dl, build m1 m2 (choose id1 id2 m1 m2) l0 dl d b = build m2 m1 (choose id1 id2 m1 m2) l0 dl d b := by
      intro l0 dl
      unfold build
      split
      · rfl
      · congr 1
        funext k
        have hel : ∀ (m : Mat) (ps : List Pt), elastic m (choose id1 id2 m1 m2) (l0 + dl) k ps = (k, ps) := by
          intro m ps
          unfold elastic
          rw [if_neg (by simp [hc.2])]
        rw [hel, hel]
        simp [finish, firstPart, h1, h2]
    unfold ip2
    rw [hb, hs, hc.1, add_comm r1 r2]

/-- Another material of the same diameter. -/
noncomputable def mat1 : Mat := { mat0 1 false [] with id := 1, ss := [(1 / 100, 100), (1 / 10, 300)] }

example : (mat0 1 false []).id ≠ mat1.id ∧ ({ mat1 with diameter := 1 }).diameter ≠ (mat0 1 false []).diameter := by norm_num [mat0, mat1]

/-- **C278 violated**: of two wires of equal diameters and different curves, that of the first body decides. -/
theorem C278_violated (id1 id2 : ℤ) : (choose id1 id2 (mat0 1 false []).section mat1.section).ss = [(1 / 100, 200), (1 / 10, 300)] ∧ (choose id2 id1 mat1.section (mat0 1 false []).section).ss = [(1 / 100, 100), (1 / 10, 300)] := by
  constructor <;> simp [choose, mat0, mat1, Mat.section]

/-! ## C279 -/

/-- **C279, part**: the shift of a link is between zero and `lambdau` times its length, the latter for the seed -1; the first random shift is that of the seed given.  Missing: seeds of further materials. -/
theorem C279_shift_partial (R : ℤ → ℕ → ℝ) (hR : ∀ s n, 0 ≤ R s n ∧ R s n ≤ 1) (now : ℤ) {m1 m2 : Mat} (g : Rng) {l0 : ℝ} (hl : 0 ≤ l0) (h1 : m1.type = 2) (hu : 0 ≤ m1.lambdau) :
    0 ≤ (shift R now m1 m2 l0 g).1 ∧ (shift R now m1 m2 l0 g).1 ≤ m1.lambdau * l0 ∧ (m1.seed = -1 → (shift R now m1 m2 l0 g).1 = m1.lambdau * l0) ∧
      (0 < m1.seed → g.g1 = none → (shift R now m1 m2 l0 g).1 = m1.lambdau * l0 * R m1.seed 1) := by
  have hlu : 0 ≤ l0 * m1.lambdau := mul_nonneg hl hu
  unfold shift
  rw [if_pos h1]
  unfold shiftBy
  by_cases hs : m1.seed = -1
  · rw [if_pos hs]
    exact ⟨hlu, by simp only; linarith, fun _ => by simp only; ring, fun h => by omega⟩
  · rw [if_neg hs]
    obtain ⟨a, b⟩ := hR (next now m1 g.g1).1 (next now m1 g.g1).2
    refine ⟨mul_nonneg hlu a, ?_, fun h => absurd h hs, ?_⟩
    · simp only
      nlinarith
    · intro hpos hg
      simp only
      rw [hg]
      simp only [next, Option.getD_none, seedOf, if_pos hpos.ne']
      ring

example : (mat0 2 false []).type = 2 ∧ 0 ≤ (mat0 2 false []).lambdau := by norm_num [mat0]

/-- **C279 violated**: once a link was made, seeds given have no effect on shifts. -/
theorem C279_violated (R : ℤ → ℕ → ℝ) (now : ℤ) (m1 m2 : Mat) (l0 : ℝ) (s : ℤ × ℕ) (g2 : Option (ℤ × ℕ)) (h1 : m1.type = 2) (hs : m1.seed ≠ -1) {seed : ℤ} (hs' : seed ≠ -1) :
    shift R now m1 m2 l0 ⟨some s, g2⟩ = shift R now { m1 with seed := seed } m2 l0 ⟨some s, g2⟩ := by
  unfold shift
  rw [if_pos h1, if_pos (show ({ m1 with seed := seed } : Mat).type = 2 from h1)]
  simp [shiftBy, hs, hs', next]

example : ({ mat0 2 false [] with seed := 12345 }).type = 2 ∧ ({ mat0 2 false [] with seed := 12345 }).seed ≠ -1 := by norm_num [mat0]

end Verif.Wire
