import Verif.Handle.Props
import Mathlib.Analysis.Real.Pi.Bounds

/-!
# Moving and copying spheres (C309, C310)
-/
namespace Verif.Handle

open Verif.Mech

/-- No list and no mask is an error, as is no list and a mask that fewer than two bodies have (one when moving). -/
theorem C307_none (sc : Scene) (mask : ℤ) :
    (mask < 0 → sphereDims sc [] mask = .throws ∧ facetDims sc [] mask = .throws ∧ ∀ s c q o, modify sc [] mask s c q o = .throws) ∧
    ((∀ (k k' : ℕ) (b b' : Body), k < k' → sc[k]? = some (some b) → sc[k']? = some (some b') → b.mask &&& mask.toNat = 0 ∨ b'.mask &&& mask.toNat = 0) →
      sphereDims sc [] mask = .throws) := by
  constructor
  · intro h
    have h' : ¬ mask > -1 := by omega
    refine ⟨?_, ?_, fun s c q o => ?_⟩ <;> simp [sphereDims, facetDims, modify, chosen, h', Res.bind]
  · intro h
    have hl : (masked sc mask).length < 2 := by
      by_contra hc
      have hinc : (masked sc mask).Pairwise (· < ·) := by
        unfold masked
        rw [List.pairwise_map]
        refine ((List.pairwise_lt_range).filter _).imp ?_
        intro a b hab
        exact Int.ofNat_lt.mpr hab
      obtain ⟨i, j, hi, hj, hij⟩ : ∃ i j, i ∈ masked sc mask ∧ j ∈ masked sc mask ∧ i < j := by
        match hm : masked sc mask with
        | [] => rw [hm] at hc; simp at hc
        | [_] => rw [hm] at hc; simp at hc
        | i :: j :: l =>
          rw [hm] at hinc
          exact ⟨i, j, by simp, by simp, (List.pairwise_cons.mp hinc).1 j (by simp)⟩
      obtain ⟨k, b, rfl, hb, hm⟩ := mem_masked.mp hi
      obtain ⟨k', b', rfl, hb', hm'⟩ := mem_masked.mp hj
      rcases h k k' b b' (by exact_mod_cast hij) hb hb' with h | h
      · exact hm h
      · exact hm' h
    by_cases hm : mask > -1
    · simp [sphereDims, chosen, hm, hl, Res.bind]
    · simp [sphereDims, chosen, hm, Res.bind]

example : sphereDims [some (ball 0 1 1), some (ball 3 1 2)] [] 1 = .throws :=
  (C307_none _ 1).2 (by
    intro k k' b b' hk hb hb'
    have h' := (List.getElem?_eq_some_iff.mp hb').1
    simp at h'
    have : k' = 1 := by omega
    subst this
    simp at hb'
    subst hb'
    right; rfl)

/-! ## C309 -/

/-- Turned and stretched about a point, then shifted. -/
def moved (c shift : V3) (scale : ℝ) (q : Quat) (p : V3) : V3 := c + scale • q.rot (p - c) + shift

/-- With a list naming no body twice, every sphere of it whose mask fits is turned and stretched about one point and shifted, its radius, mass and inertia
following the scale; nothing else changes, neither in it nor in the other bodies.  The point is the centre of the box of the spheres of the list. -/
theorem C309_move_partial (sc : Scene) (ids : List ℤ) (mask : ℤ) (shift : V3) (scale : ℝ) (q : Quat) (hne : ids ≠ [])
    (hv : ∀ i ∈ ids, slot sc.length i ≠ none) (hn : (ids.map (slot sc.length)).Nodup) :
    ∃ d sc', sphereDims sc ids (-1) = .ok d ∧ modify sc ids mask shift scale q false = .ok (sc', []) ∧ sc'.length = sc.length ∧
      (∀ k b r, About sc ids mask k b r → sc'[k]? = some (some { b with
        pos := moved (fun j => (d.ext.lo j + d.ext.hi j) / 2) shift scale q b.pos
        radius := some (r * scale), mass := b.mass * scale ^ 3, inertia := (scale ^ 5) • b.inertia })) ∧
      ∀ k, (∀ b r, ¬ About sc ids mask k b r) → sc'[k]? = sc[k]? := by
  obtain ⟨d, hd, -, -, -, hcen⟩ := (C307_sums sc ids (-1) hne).2 hv
  have hl : ¬ ids.length < 1 := by
    have := List.length_pos_iff.mpr hne; omega
  have hch : ∀ l, chosen l sc ids mask = .ok ids := fun l => by unfold chosen; rw [if_neg hl]
  obtain ⟨sc', h1, h2, h3, h4⟩ := modifyLoop_place mask (change d.ext.center shift scale q) ids sc [] hv hn
  refine ⟨d, sc', hd, ?_, h2, ?_, ?_⟩
  · unfold modify
    rw [hch, Res.bind_ok, hd, Res.bind_ok, h1]
  · intro k b r hb
    rw [h3 (k, b, r) ((chosen_about (hch 1) k b r).mpr hb)]
    have hr := hb.2.2.1
    rw [← hcen]
    simp only [change, hr, Option.map_some, moved]
    congr 3
    abel_nf
  · intro k hk
    refine h4 k ?_
    rintro ⟨k', b, r⟩ hx rfl
    exact hk b r ((chosen_about (hch 1) k' b r).mp hx)

/-- Distances are multiplied by the scale, so spheres that touch still touch and overlaps are multiplied too. -/
theorem C309_similar (c shift : V3) (scale : ℝ) (q : Quat) (hq : q.sqNorm = 1) (hs : 0 ≤ scale) (a b : V3) (r s : ℝ) :
    norm3 (moved c shift scale q a - moved c shift scale q b) = scale * norm3 (a - b) ∧
    r * scale + s * scale - norm3 (moved c shift scale q a - moved c shift scale q b) = scale * (r + s - norm3 (a - b)) := by
  have e : moved c shift scale q a - moved c shift scale q b = scale • q.rot (a - b) := by
    have : a - b = (a - c) - (b - c) := by abel
    rw [this, Quat.rot_sub, smul_sub]
    unfold moved; abel
  have h : norm3 (moved c shift scale q a - moved c shift scale q b) = scale * norm3 (a - b) := by
    rw [e, Cpm.norm3_smul, abs_of_nonneg hs]
    congr 1
    unfold norm3 Mech.sqNorm
    rw [Quat.dot_rot hq]
  exact ⟨h, by rw [h]; ring⟩

/-- Mass stays density times volume, and the inertia that of a full sphere. -/
theorem C309_density (ρ r scale m : ℝ) (I : V3) (hm : m = ρ * (4 / 3 * Real.pi * r ^ 3)) (hI : ∀ j, I j = 2 / 5 * m * r ^ 2) :
    m * scale ^ 3 = ρ * (4 / 3 * Real.pi * (r * scale) ^ 3) ∧ ∀ j, ((scale ^ 5) • I) j = 2 / 5 * (m * scale ^ 3) * (r * scale) ^ 2 := by
  refine ⟨by rw [hm]; ring, fun j => ?_⟩
  rw [Pi.smul_apply, smul_eq_mul, hI]; ring

theorem rot_one (v : V3) : Quat.one.rot v = v := by
  apply v3_ext <;> simp [Quat.rot, Quat.one]

/-- Without a turn, and without a mask, the box of the spheres is stretched about its own centre and shifted. -/
theorem C309_box (sc sc' : Scene) (ids : List ℤ) (shift : V3) (scale : ℝ) (hs : 0 ≤ scale) (hne : ids ≠ [])
    (hv : ∀ i ∈ ids, slot sc.length i ≠ none) (hn : (ids.map (slot sc.length)).Nodup) (out : List Body)
    (hm : modify sc ids (-1) shift scale Quat.one false = .ok (sc', out)) (d d' : Dims) (hd : sphereDims sc ids (-1) = .ok d)
    (hd' : sphereDims sc' ids (-1) = .ok d') (h0 : d.ext.n ≠ 0) :
    d'.ext.center = d.ext.center + shift ∧ d'.ext.hi - d'.ext.lo = scale • (d.ext.hi - d.ext.lo) := by
  obtain ⟨d1, sc1, e1, e2, e3, e4, e5⟩ := C309_move_partial sc ids (-1) shift scale Quat.one hne hv hn
  rw [hm] at e2; cases e2
  rw [hd] at e1; cases e1
  have fit : ∀ b : Body, fits (-1) b := fun b h => by omega
  have fwd : ∀ k b r, About sc ids (-1) k b r → ∃ b', About sc' ids (-1) k b' (r * scale) ∧
      b'.pos = moved (fun j => (d.ext.lo j + d.ext.hi j) / 2) shift scale Quat.one b.pos := by
    intro k b r h
    refine ⟨_, ⟨?_, e4 k b r h, rfl, fit _⟩, rfl⟩
    rw [e3]; exact h.1
  have bwd : ∀ k b' r', About sc' ids (-1) k b' r' → ∃ b r, About sc ids (-1) k b r ∧ r' = r * scale ∧
      b'.pos = moved (fun j => (d.ext.lo j + d.ext.hi j) / 2) shift scale Quat.one b.pos := by
    intro k b' r' h
    by_cases hx : ∃ b r, About sc ids (-1) k b r
    · obtain ⟨b, r, hb⟩ := hx
      have h1 := e4 k b r hb
      rw [h.2.1] at h1
      simp only [Option.some.injEq] at h1
      refine ⟨b, r, hb, ?_, by rw [h1]⟩
      have := h.2.2.1
      rw [h1] at this
      simpa using this.symm
    · push Not at hx
      have h1 := e5 k hx
      rw [h.2.1] at h1
      exact (hx b' r' ⟨by rw [← e3]; exact h.1, h1.symm, h.2.2.1, h.2.2.2⟩).elim
  obtain ⟨i1, t1⟩ := C307_box sc ids (-1) d hd
  obtain ⟨i2, t2⟩ := C307_box sc' ids (-1) d' hd'
  have t1 := t1 h0
  have h0' : d'.ext.n ≠ 0 := by
    intro hz
    obtain ⟨b, r, hb, -⟩ := (t1 0).1
    obtain ⟨b', hb', -⟩ := fwd _ b r hb
    obtain ⟨is, hc, hdd⟩ := sphereDims_ok hd'
    have hmem := (chosen_about hc _ b' _).mpr hb'
    have T := fold_tight (spheresOf sc' (-1) is) ⟨Ext.zero, 0, 0⟩ [] tight_zero
    rw [← hdd] at T
    have := T.n
    rw [hz] at this
    simp at this
    rw [List.length_eq_zero_iff.mp this.symm] at hmem
    simp at hmem
  have t2 := t2 h0'
  have mv : ∀ (p : V3) j, moved (fun j => (d.ext.lo j + d.ext.hi j) / 2) shift scale Quat.one p j =
      (d.ext.lo j + d.ext.hi j) / 2 + scale * (p j - (d.ext.lo j + d.ext.hi j) / 2) + shift j := by
    intro p j
    unfold moved
    rw [rot_one]; rfl
  have key : ∀ j, d'.ext.lo j = (d.ext.lo j + d.ext.hi j) / 2 + scale * (d.ext.lo j - (d.ext.lo j + d.ext.hi j) / 2) + shift j ∧
      d'.ext.hi j = (d.ext.lo j + d.ext.hi j) / 2 + scale * (d.ext.hi j - (d.ext.lo j + d.ext.hi j) / 2) + shift j := by
    intro j
    constructor
    · apply le_antisymm
      · obtain ⟨b, r, hb, e⟩ := (t1 j).1
        obtain ⟨b', hb', p'⟩ := fwd _ b r hb
        have := (i2 _ b' _ hb' j).1
        rw [p', mv] at this
        refine this.trans (le_of_eq ?_)
        linear_combination (-scale) * e
      · obtain ⟨b', r', hb', e⟩ := (t2 j).1
        obtain ⟨b, r, hb, er, p'⟩ := bwd _ b' r' hb'
        have := mul_le_mul_of_nonneg_left (i1 _ b _ hb j).1 hs
        rw [e, p', mv, er]
        linarith
    · apply le_antisymm
      · obtain ⟨b', r', hb', e⟩ := (t2 j).2
        obtain ⟨b, r, hb, er, p'⟩ := bwd _ b' r' hb'
        have := mul_le_mul_of_nonneg_left (i1 _ b _ hb j).2 hs
        rw [e, p', mv, er]
        linarith
      · obtain ⟨b, r, hb, e⟩ := (t1 j).2
        obtain ⟨b', hb', p'⟩ := fwd _ b r hb
        have := (i2 _ b' _ hb' j).2
        rw [p', mv] at this
        refine le_trans (le_of_eq ?_) this
        linear_combination scale * e
  constructor
  · funext j
    simp only [Ext.center, Pi.add_apply, Pi.smul_apply, Pi.sub_apply, smul_eq_mul]
    rw [(key j).1, (key j).2]; ring
  · funext j
    simp only [Pi.smul_apply, Pi.sub_apply, smul_eq_mul]
    rw [(key j).1, (key j).2]; ring

/-- The point everything is turned and stretched about is not the centre of the spheres that are moved: those the mask leaves out count as well.  Here the
only sphere that fits, at the origin, is doubled in place and ends up elsewhere. -/
theorem C309_violated : ∃ (sc' : Scene) (b : Body), modify [some (ball 0 1 1), some (ball 10 1 2)] [0, 1] 1 0 2 Quat.one false = .ok (sc', []) ∧
    sc'[0]? = some (some b) ∧ b.pos 0 = -5 := by
  obtain ⟨d, sc', hd, hm, -, h, -⟩ := C309_move_partial [some (ball 0 1 1), some (ball 10 1 2)] [0, 1] 1 0 2 Quat.one (by simp) (by simp [slot])
    (by simp [slot])
  refine ⟨sc', _, hm, h 0 (ball 0 1 1) 1 ⟨Or.inr ⟨0, by simp, by simp [slot]⟩, rfl, rfl, by simp [fits, ball]⟩, ?_⟩
  obtain ⟨is, hc, rfl⟩ := sphereDims_ok hd
  have : is = [0, 1] := by simp [chosen] at hc; exact hc.symm
  have e : spheresOf [some (ball 0 1 1), some (ball 10 1 2)] (-1) [0, 1] = [(0, ball 0 1 1, 1), (1, ball 10 1 2, 1)] := by
    simp [spheresOf, sphereAt, named, slot, ball, fits]
  rw [this, e]
  simp only [moved, rot_one, Pi.add_apply, Pi.smul_apply, Pi.sub_apply]
  norm_num [addS, Ext.add, ball, Ext.zero]

/-- A list naming a body twice, once from the end, doubles it twice. -/
theorem C309_violated_twice : ∃ (sc' : Scene) (b : Body), modify [some (ball 0 1 1)] [0, -1] (-1) 0 2 Quat.one false = .ok (sc', []) ∧
    sc'[0]? = some (some b) ∧ b.radius = some 4 := by
  obtain ⟨d, hd, -⟩ := (C307_sums [some (ball 0 1 1)] [0, -1] (-1) (by simp)).2 (by simp [slot])
  refine ⟨[some (change d.ext.center 0 2 Quat.one (change d.ext.center 0 2 Quat.one (ball 0 1 1)))],
    change d.ext.center 0 2 Quat.one (change d.ext.center 0 2 Quat.one (ball 0 1 1)), ?_, rfl, ?_⟩
  · unfold modify
    rw [show chosen 1 [some (ball 0 1 1)] [0, -1] (-1) = .ok [0, -1] by simp [chosen], Res.bind_ok, hd, Res.bind_ok]
    have hr : (change d.ext.center 0 2 Quat.one (ball 0 1 1)).radius = some 2 := by norm_num [change, ball]
    have hr0 : (ball 0 1 1).radius = some 1 := rfl
    simp [modifyLoop, idx_eq, slot, hr, hr0, skips]
  · norm_num [change, ball]

/-- Turning leaves the orientations of the spheres as they were. -/
theorem C309_violated_ori (sc sc' : Scene) (ids : List ℤ) (mask : ℤ) (shift : V3) (scale : ℝ) (q : Quat) (hne : ids ≠ [])
    (hv : ∀ i ∈ ids, slot sc.length i ≠ none) (hn : (ids.map (slot sc.length)).Nodup) (out : List Body)
    (hm : modify sc ids mask shift scale q false = .ok (sc', out)) (k : ℕ) (b b' : Body) (hb : sc[k]? = some (some b))
    (hb' : sc'[k]? = some (some b')) : b'.ori = b.ori := by
  obtain ⟨d, sc1, -, e2, -, e4, e5⟩ := C309_move_partial sc ids mask shift scale q hne hv hn
  rw [hm] at e2; cases e2
  by_cases hx : ∃ b r, About sc ids mask k b r
  · obtain ⟨b1, r, h⟩ := hx
    have h1 := e4 k b1 r h
    have h2 := h.2.1
    rw [hb] at h2; rw [hb'] at h1
    cases h2; cases h1; rfl
  · push Not at hx
    have h1 := e5 k hx
    rw [hb, hb'] at h1
    cases h1; rfl

/-! ## C310 -/

/-- Copies: the scene stays as it is, there is one new sphere for each sphere of the list whose mask fits, in that order, where the moved one would be, with
its mask, density and scaled radius; its mass and inertia are those of a full sphere of that density; it is not turned and does not move. -/
theorem C310_copies_partial (sc : Scene) (ids : List ℤ) (mask : ℤ) (shift : V3) (scale : ℝ) (q : Quat) (hne : ids ≠ [])
    (hv : ∀ i ∈ ids, slot sc.length i ≠ none) :
    ∃ d out, sphereDims sc ids (-1) = .ok d ∧ modify sc ids mask shift scale q true = .ok (sc, out) ∧
      List.Forall₂ (fun (x : ℕ × Body × ℝ) (c : Body) =>
        c.pos = moved (fun j => (d.ext.lo j + d.ext.hi j) / 2) shift scale q x.2.1.pos ∧ c.radius = some (x.2.2 * scale) ∧ c.mask = x.2.1.mask ∧
        c.density = x.2.1.density ∧ c.mass = x.2.1.density * (4 / 3 * Real.pi * (x.2.2 * scale) ^ 3) ∧
        (∀ j, c.inertia j = 2 / 5 * c.mass * (x.2.2 * scale) ^ 2) ∧ (c.dof = 63 ↔ x.2.1.dof = 63) ∧ c.ori = Quat.one ∧ c.vel = 0) (spheresOf sc mask ids) out := by
  obtain ⟨d, hd, -, -, -, hcen⟩ := (C307_sums sc ids (-1) hne).2 hv
  have hl : ¬ ids.length < 1 := by
    have := List.length_pos_iff.mpr hne; omega
  refine ⟨d, (spheresOf sc mask ids).map fun x => change d.ext.center shift scale q (duplicate x.2.1 x.2.2), hd, ?_, ?_⟩
  · unfold modify
    rw [show chosen 1 sc ids mask = .ok ids by unfold chosen; rw [if_neg hl], Res.bind_ok, hd, Res.bind_ok, modifyLoop_copy _ _ _ _ hv, List.nil_append]
  · rw [List.forall₂_map_right_iff, List.forall₂_same]
    rintro ⟨k, b, r⟩ -
    rw [← hcen]
    refine ⟨?_, rfl, rfl, rfl, ?_, fun j => ?_, ?_, rfl, rfl⟩
    · simp only [change, duplicate, moved]; abel
    · simp only [change, duplicate]; ring
    · simp only [change, duplicate, Pi.smul_apply, smul_eq_mul]; ring
    · simp only [change, duplicate]
      split_ifs with h <;> simp [h]

/-- A copy is not the same in everything: velocity, single blocked degrees of freedom and a mass set by hand are lost. -/
theorem C310_violated : ∃ c, modify [some (ball 0 1 1)] [0] (-1) 0 1 Quat.one true = .ok ([some (ball 0 1 1)], [c]) ∧
    c.vel ≠ (ball 0 1 1).vel ∧ c.dof = 0 ∧ (ball 0 1 1).dof = 4 ∧ c.mass ≠ (ball 0 1 1).mass := by
  obtain ⟨d, hd, -⟩ := (C307_sums [some (ball 0 1 1)] [0] (-1) (by simp)).2 (by simp [slot])
  refine ⟨change d.ext.center 0 1 Quat.one (duplicate (ball 0 1 1) 1), ?_, ?_, ?_, rfl, ?_⟩
  · unfold modify
    rw [show chosen 1 [some (ball 0 1 1)] [0] (-1) = .ok [0] by simp [chosen], Res.bind_ok, hd, Res.bind_ok, modifyLoop_copy _ _ _ _ (by simp [slot])]
    simp [spheresOf, sphereAt, named, slot, ball, fits]
  · intro h
    have := congrFun h 0
    simp [change, duplicate, ball] at this
  · simp [change, duplicate, ball]
  · simp only [change, duplicate, ball]
    intro h
    have := Real.pi_gt_three
    nlinarith

example : ∃ d out, sphereDims [some (ball 0 1 1), none, some (plate 1)] [0, 1, 2] (-1) = .ok d ∧
    modify [some (ball 0 1 1), none, some (plate 1)] [0, 1, 2] 1 1 2 Quat.one true = .ok ([some (ball 0 1 1), none, some (plate 1)], out) := by
  obtain ⟨d, out, h1, h2, -⟩ := C310_copies_partial [some (ball 0 1 1), none, some (plate 1)] [0, 1, 2] 1 1 2 Quat.one (by simp) (by simp [slot])
  exact ⟨d, out, h1, h2⟩

example : norm3 (moved 0 1 2 Quat.one ![3, 0, 0] - moved 0 1 2 Quat.one 0) = 2 * norm3 (![3, 0, 0] - 0) :=
  (C309_similar 0 1 2 Quat.one (by simp [Quat.one, Quat.sqNorm]) (by norm_num) _ _ 1 1).1

example : (8 * (4 / 3 * Real.pi * (1 : ℝ) ^ 3)) * 2 ^ 3 = 8 * (4 / 3 * Real.pi * (1 * 2) ^ 3) :=
  (C309_density 8 1 2 _ (fun _ => 2 / 5 * (8 * (4 / 3 * Real.pi * (1 : ℝ) ^ 3)) * 1 ^ 2) rfl fun _ => rfl).1

/-- Two spheres of a scene that both get moved, the box not being empty. -/
example : ∃ d sc', sphereDims [some (ball 0 1 1), some (ball 10 1 2)] [0, 1] (-1) = .ok d ∧ d.ext.n ≠ 0 ∧
    modify [some (ball 0 1 1), some (ball 10 1 2)] [0, 1] (-1) 1 2 Quat.one false = .ok (sc', []) ∧ ∃ d', sphereDims sc' [0, 1] (-1) = .ok d' := by
  obtain ⟨d, sc', h1, h2, h3, -⟩ := C309_move_partial [some (ball 0 1 1), some (ball 10 1 2)] [0, 1] (-1) 1 2 Quat.one (by simp) (by simp [slot])
    (by simp [slot])
  refine ⟨d, sc', h1, ?_, h2, ?_⟩
  · obtain ⟨d1, hd1, hn, -⟩ := (C307_sums [some (ball 0 1 1), some (ball 10 1 2)] [0, 1] (-1) (by simp)).2 (by simp [slot])
    rw [h1] at hd1; cases hd1
    rw [hn]
    simp [spheresOf, sphereAt, named, slot, ball, fits]
  · obtain ⟨d1, hd1, -⟩ := (C307_sums sc' [0, 1] (-1) (by simp)).2 (by rw [h3]; simp [slot])
    exact ⟨d1, hd1⟩

end Verif.Handle
