import Verif.Decomp.TileProps
import Mathlib.Tactic.FieldSimp

/-!
# The automatic number of parts: C162
-/
namespace Verif.Decomp
open Verif.Mech
open scoped Classical Matrix

/-! ## Least squares -/

theorem gram_det (x y z : ℝ) : ((!![x, y, 0; x, 0, z; 0, y, z] : M3)ᵀ * !![x, y, 0; x, 0, z; 0, y, z]).det = 4 * (x * y * z) ^ 2 := by
  rw [Matrix.det_mul, Matrix.det_transpose, Matrix.det_fin_three]
  simp
  ring

theorem leastSquares_ok {x y z : ℝ} (hx : x ≠ 0) (hy : y ≠ 0) (hz : z ≠ 0) :
    leastSquares x y z = some ![0.005 / x, 0.005 / y, 0.005 / z] := by
  have hd := gram_det x y z
  have hne : ((!![x, y, 0; x, 0, z; 0, y, z] : M3)ᵀ * !![x, y, 0; x, 0, z; 0, y, z]).det ≠ 0 := by rw [hd]; positivity
  rw [leastSquares, if_neg hne]
  congr 1
  set G : M3 := !![x, y, 0; x, 0, z; 0, y, z] with hG
  have hb : (fun _ => 0.01 * 1 : V3) = G.mulVec ![0.005 / x, 0.005 / y, 0.005 / z] := by
    funext a
    fin_cases a <;> simp [hG, Matrix.mulVec, dotProduct, Fin.sum_univ_three] <;> field_simp <;> norm_num
  rw [hb, ← Matrix.mulVec_mulVec, Matrix.mulVec_mulVec (M := Gᵀ), Matrix.mulVec_mulVec,
    Matrix.nonsing_inv_mul _ (isUnit_iff_ne_zero.mpr hne), Matrix.one_mulVec]

theorem leastSquares_none {x y z : ℝ} (h : x = 0 ∨ y = 0 ∨ z = 0) : leastSquares x y z = none := by
  rw [leastSquares, if_pos]
  rw [gram_det]
  rcases h with rfl | rfl | rfl <;> simp

/-- The numbers the loop starts with: two hundred parts to the metre. -/
theorem side_eq {mn mx : V3} (hb : ∀ a, mn a < mx a) (fuel : Nat) (num : Int) :
    sideDecomposition fuel mn mx num =
      (decompLoop num fuel ⟨⌊200 * (mx 0 - mn 0)⌋₊, ⌊200 * (mx 1 - mn 1)⌋₊, ⌊200 * (mx 2 - mn 2)⌋₊⟩).map fun p =>
        .ok (![⌊p.x⌋₊ + 1, ⌊p.y⌋₊ + 1, ⌊p.z⌋₊ + 1], num - p.est) := by
  have e : ∀ a, |mx a - mn a| = mx a - mn a := fun a => abs_of_pos (by linarith [hb a])
  have n : ∀ a, mx a - mn a ≠ 0 := fun a => by linarith [hb a]
  have i : ∀ a, (0.005 / (mx a - mn a))⁻¹ = 200 * (mx a - mn a) := fun a => by
    have := n a
    field_simp
    norm_num
  rw [sideDecomposition, e, e, e, leastSquares_ok (n 0) (n 1) (n 2)]
  simp only [Matrix.cons_val_zero, Matrix.cons_val_one, Matrix.cons_val_two, Matrix.head_cons, Matrix.tail_cons, i]

/-! ## The loop -/

theorem loop_ends {num : Int} {fuel : Nat} {p q : Parts} (h : decompLoop num fuel p = some q) : decompStep num q = none := by
  induction fuel generalizing p with
  | zero => cases h
  | succ n ih =>
    rw [decompLoop] at h
    cases hs : decompStep num p with
    | none => rw [hs] at h; simp only [Option.some.injEq] at h; rwa [← h]
    | some p' => rw [hs] at h; exact ih h

theorem idx_eq (a b c : Int) : idxOfSmallest [a, b, c] = if 2 < b then 2 else 1 := by
  simp only [idxOfSmallest, List.zipIdx, List.foldl]
  norm_num
  split_ifs <;> rfl

/-- What is done if there are too few parts: never anything along the first axis. -/
theorem step_small {num : Int} {p : Parts} (h : p.est < num) :
    decompStep num p = if num - p.est < ⌊p.y⌋₊ * ⌊p.z⌋₊ ∧ num - p.est < ⌊p.x⌋₊ * ⌊p.z⌋₊ ∧ num - p.est < ⌊p.y⌋₊ * ⌊p.x⌋₊ then none
      else if 2 + (num - p.est) < ⌊p.x⌋₊ * ⌊p.z⌋₊ then some ⟨p.x, p.y, ⌊p.z⌋₊ + 1⟩ else some ⟨p.x, ⌊p.y⌋₊ + 1, p.z⟩ := by
  rw [decompStep, if_neg (by omega), if_pos h]
  simp only [List.map_cons, List.map_nil, List.mem_cons, List.not_mem_nil, or_false, forall_eq_or_imp, forall_eq, idx_eq, gt_iff_lt, sub_pos]
  by_cases h1 : num - p.est < ⌊p.y⌋₊ * ⌊p.z⌋₊ ∧ num - p.est < ⌊p.x⌋₊ * ⌊p.z⌋₊ ∧ num - p.est < ⌊p.y⌋₊ * ⌊p.x⌋₊
  · rw [if_pos h1, if_pos h1]
  · rw [if_neg h1, if_neg h1]
    by_cases h2 : 2 + (num - p.est) < ⌊p.x⌋₊ * ⌊p.z⌋₊
    · rw [if_pos h2, if_pos (show (2 : Int) < _ by omega)]; simp
    · rw [if_neg h2, if_neg (show ¬ (2 : Int) < _ by omega)]; simp

/-- When the loop ends the number of parts is right, or can be made right by halving some of them. -/
theorem step_none {num : Int} {p : Parts} (h : decompStep num p = none) :
    p.est = num ∨ p.est < num ∧ num - p.est < p.est ∧ 0 < ⌊p.x⌋₊ ∧ 0 < ⌊p.y⌋₊ ∧ 0 < ⌊p.z⌋₊ := by
  rw [decompStep] at h
  dsimp only at h
  split_ifs at h with h1 h2 h3
  · right
    simp only [List.map_cons, List.map_nil, List.mem_cons, List.not_mem_nil, or_false, forall_eq_or_imp, forall_eq] at h3
    obtain ⟨a, b, c⟩ := h3
    have hx : 0 < ⌊p.x⌋₊ := by
      rcases Nat.eq_zero_or_pos ⌊p.x⌋₊ with e | e
      · rw [e] at b; simp at b; omega
      · exact e
    have hy : 0 < ⌊p.y⌋₊ := by
      rcases Nat.eq_zero_or_pos ⌊p.y⌋₊ with e | e
      · rw [e] at a; simp at a; omega
      · exact e
    have hz : 0 < ⌊p.z⌋₊ := by
      rcases Nat.eq_zero_or_pos ⌊p.z⌋₊ with e | e
      · rw [e] at a; simp at a; omega
      · exact e
    refine ⟨h2, ?_, hx, hy, hz⟩
    have e : p.est = (⌊p.y⌋₊ * ⌊p.z⌋₊ : Int) * ⌊p.x⌋₊ := by rw [Parts.est]; ring
    have hx' : (1 : Int) ≤ ⌊p.x⌋₊ := by exact_mod_cast hx
    have h0 : (0 : Int) ≤ (⌊p.y⌋₊ * ⌊p.z⌋₊ : Int) := by positivity
    have : (⌊p.y⌋₊ * ⌊p.z⌋₊ : Int) ≤ p.est := by rw [e]; nlinarith
    omega
  · left; omega

/-! ## C162 -/

/-- C162.  If the automatic decomposition returns, it has made as many subdomains as were asked for.  Missing: it need not return, see
`C162_violated_elongated`, and it throws for a flat box, see `C162_violated_flat`. -/
theorem C162_count_partial {fuel : Nat} {mn mx : V3} {num : Int} {g : Grid} {l : List Sub} (hb : ∀ a, mn a ≤ mx a)
    (h : globaldomain fuel mn mx num 0 = some (.ok (g, l))) : (l.length : Int) = num ∧ (0 < num → ∀ a, 1 < g.n a) := by
  rw [globaldomain, if_pos (by simp), sideDecomposition] at h
  cases hm : leastSquares |mx 0 - mn 0| |mx 1 - mn 1| |mx 2 - mn 2| with
  | none => rw [hm] at h; simp [Res.bind] at h
  | some m =>
    rw [hm] at h
    simp only [Option.map_map, Option.map_eq_some_iff, Function.comp_apply] at h
    obtain ⟨p, hp, hr⟩ := h
    rw [Res.bind_ok] at hr
    have hr := Res.ok.inj hr
    simp only [Prod.mk.injEq] at hr
    obtain ⟨rfl, rfl⟩ := hr
    rw [partitionSubdomains, (partition_spec (by exact hb) _ (cells_nodup _ _ _) _ _).2.2.2.2, cells_length]
    simp only [Matrix.cons_val_zero, Matrix.cons_val_one, Matrix.cons_val_two, Matrix.head_cons, Matrix.tail_cons, Nat.add_sub_cancel, Matrix.cons_val]
    have e : p.est = ((⌊p.x⌋₊ * ⌊p.y⌋₊ * ⌊p.z⌋₊ : Nat) : Int) := by rw [Parts.est]; push_cast; ring
    rcases step_none (loop_ends hp) with h1 | ⟨h1, h2, hx, hy, hz⟩
    · refine ⟨by rw [e] at *; omega, ?_⟩
      intro h0
      rw [← h1, e] at h0
      have h0 : 0 < ⌊p.x⌋₊ * ⌊p.y⌋₊ * ⌊p.z⌋₊ := by exact_mod_cast h0
      have hz := Nat.pos_of_mul_pos_left h0
      have hxy := Nat.pos_of_mul_pos_right h0
      intro a
      fin_cases a
      · exact Nat.succ_lt_succ (Nat.pos_of_ne_zero fun e => by simp [e] at h0)
      · exact Nat.succ_lt_succ (Nat.pos_of_ne_zero fun e => by simp [e] at h0)
      · exact Nat.succ_lt_succ (Nat.pos_of_ne_zero fun e => by simp [e] at h0)
    · refine ⟨by rw [e] at *; omega, fun _ a => ?_⟩
      fin_cases a
      · exact Nat.succ_lt_succ hx
      · exact Nat.succ_lt_succ hy
      · exact Nat.succ_lt_succ hz

/-- The parts along the second axis are increased until halving does the rest. -/
theorem grow (num : Int) (x z : ℝ) (hxz : ⌊x⌋₊ = ⌊z⌋₊) (hx : 1 ≤ ⌊x⌋₊) (n : Nat) (y : ℝ) (hy : ⌊x⌋₊ ≤ ⌊y⌋₊) (h : (Parts.mk x y z).est ≤ num)
    (hn : num - (Parts.mk x y z).est ≤ n) : ∃ fuel q, decompLoop num fuel ⟨x, y, z⟩ = some q := by
  induction n generalizing y with
  | zero =>
    refine ⟨1, ⟨x, y, z⟩, ?_⟩
    have : decompStep num ⟨x, y, z⟩ = none := by
      rw [decompStep, if_neg (by omega), if_neg (by push_cast at hn; omega)]
    rw [decompLoop, this]
  | succ n ih =>
    cases hs : decompStep num ⟨x, y, z⟩ with
    | none => exact ⟨1, ⟨x, y, z⟩, by rw [decompLoop, hs]⟩
    | some p' =>
      suffices h' : ∃ y', p' = ⟨x, y', z⟩ ∧ ⌊x⌋₊ ≤ ⌊y'⌋₊ ∧ (Parts.mk x y' z).est ≤ num ∧ (Parts.mk x y z).est < (Parts.mk x y' z).est by
        obtain ⟨y', rfl, h0, h1, h2⟩ := h'
        obtain ⟨fuel, q, hq⟩ := ih y' h0 h1 (by push_cast at hn ⊢; omega)
        exact ⟨fuel + 1, q, by rw [decompLoop, hs]; exact hq⟩
      have h2 : (Parts.mk x y z).est < num := by
        by_contra hc
        rw [decompStep, if_neg (by omega), if_neg hc] at hs
        cases hs
      rw [step_small h2] at hs
      have h3 : ¬ _ := fun h3 => by rw [if_pos h3] at hs; cases hs
      rw [if_neg h3] at hs
      have e : (Parts.mk x y z).est = (⌊y⌋₊ : Int) * (⌊x⌋₊ * ⌊x⌋₊) := by simp only [Parts.est, ← hxz]; ring
      have hpos : (1 : Int) ≤ (⌊x⌋₊ : Int) * ⌊x⌋₊ := by exact_mod_cast Nat.mul_le_mul hx hx
      have hle : (⌊x⌋₊ * ⌊z⌋₊ : Int) ≤ num - (Parts.mk x y z).est := by
        by_contra hc
        apply h3
        dsimp only
        rw [← hxz] at hc ⊢
        have : (⌊x⌋₊ * ⌊x⌋₊ : Int) ≤ ⌊y⌋₊ * ⌊x⌋₊ := by exact_mod_cast Nat.mul_le_mul_right _ hy
        refine ⟨?_, ?_, ?_⟩ <;> omega
      rw [if_neg (by dsimp only; omega), Option.some.injEq] at hs
      have fl : ⌊((⌊y⌋₊ : ℝ) + 1)⌋₊ = ⌊y⌋₊ + 1 := by exact_mod_cast Nat.floor_natCast (⌊y⌋₊ + 1)
      have e' : (Parts.mk x (⌊y⌋₊ + 1) z).est = (Parts.mk x y z).est + ⌊x⌋₊ * ⌊x⌋₊ := by
        rw [e]
        simp only [Parts.est, ← hxz, fl]
        push_cast; ring
      rw [← hxz] at hle
      refine ⟨⌊y⌋₊ + 1, ?_, ?_, ?_, ?_⟩
      · rw [← hs]
      · rw [fl]; omega
      · omega
      · omega

/-- Equal numbers of parts are decreased until there are not too many. -/
theorem shrink (num : Int) (hnum : 1 ≤ num) (n : Nat) (t : ℝ) (ht : 1 ≤ t) (h : t < 2 * (100 / 99) ^ n) :
    ∃ fuel q, decompLoop num fuel ⟨t, t, t⟩ = some q := by
  have h1 : 1 ≤ ⌊t⌋₊ := Nat.le_floor (by simpa using ht)
  induction n generalizing t with
  | zero =>
    have h2 : ⌊t⌋₊ < 2 := by rw [Nat.floor_lt (by linarith)]; simpa using h
    have e : (Parts.mk t t t).est = 1 := by
      have : ⌊t⌋₊ = 1 := by omega
      simp [Parts.est, this]
    exact grow num t t rfl h1 (num - (Parts.mk t t t).est).toNat t le_rfl (by omega) (by omega)
  | succ n ih =>
    by_cases hgt : (Parts.mk t t t).est > num
    · have h2 : 2 ≤ ⌊t⌋₊ := by
        by_contra hc
        have : ⌊t⌋₊ = 1 := by omega
        simp [Parts.est, this] at hgt
        omega
      have h2' : (2 : ℝ) ≤ t := by
        have := Nat.floor_le (show 0 ≤ t by linarith)
        have h3 : (2 : ℝ) ≤ ⌊t⌋₊ := by exact_mod_cast h2
        linarith
      obtain ⟨fuel, q, hq⟩ := ih (t * 0.99) (by norm_num; linarith) (by rw [pow_succ] at h; norm_num at h ⊢; linarith)
        (Nat.le_floor (by norm_num; linarith))
      refine ⟨fuel + 1, q, ?_⟩
      rw [decompLoop, decompStep, if_pos hgt]
      exact hq
    · exact grow num t t rfl h1 (num - (Parts.mk t t t).est).toNat t le_rfl (by omega) (by omega)

/-- C162.  For cubes of half a centimetre or more the automatic decomposition returns, with as many subdomains as were asked for. -/
theorem C162_cube_partial {mn mx : V3} {num : Int} (hnum : 1 ≤ num) {e : ℝ} (he : 0.005 ≤ e) (hb : ∀ a, mx a = mn a + e) :
    ∃ fuel g l, globaldomain fuel mn mx num 0 = some (.ok (g, l)) ∧ (l.length : Int) = num := by
  have hlt : ∀ a, mn a < mx a := fun a => by rw [hb a]; norm_num at he; linarith
  have hd : ∀ a, mx a - mn a = e := fun a => by rw [hb a]; ring
  have ht : (1 : ℝ) ≤ (⌊200 * e⌋₊ : ℝ) := by
    have : 1 ≤ ⌊200 * e⌋₊ := Nat.le_floor (by norm_num at he ⊢; linarith)
    exact_mod_cast this
  obtain ⟨n, hn⟩ := pow_unbounded_of_one_lt ((⌊200 * e⌋₊ : ℝ) / 2) (show (1 : ℝ) < 100 / 99 by norm_num)
  obtain ⟨fuel, q, hq⟩ := shrink num hnum n _ ht (by linarith)
  have : ∃ g l, globaldomain fuel mn mx num 0 = some (.ok (g, l)) := by
    refine ⟨⟨mn, mx, ![⌊q.x⌋₊ + 1, ⌊q.y⌋₊ + 1, ⌊q.z⌋₊ + 1]⟩, partitionSubdomains ⟨mn, mx, ![⌊q.x⌋₊ + 1, ⌊q.y⌋₊ + 1, ⌊q.z⌋₊ + 1]⟩ (num - q.est), ?_⟩
    rw [globaldomain, if_pos (by simp), side_eq hlt, hd, hd, hd, hq]
    simp
  obtain ⟨g, l, h⟩ := this
  exact ⟨fuel, g, l, h, (C162_count_partial (fun a => (hlt a).le) h).1⟩

/-- A cube of edge one and seven subdomains. -/
example : ∃ fuel g l, globaldomain fuel 0 1 7 0 = some (.ok (g, l)) ∧ (l.length : Int) = 7 :=
  C162_cube_partial (by norm_num) (e := 1) (by norm_num) (by intro a; simp)

/-- The numbers of parts never fit if the box is much longer along the second or third axis than along an earlier one. -/
theorem never (num : Int) (hnum : 1 ≤ num) (fuel : Nat) (p : Parts) (hx : 0 ≤ p.x) (hy : 0 ≤ p.y) (hz : 0 ≤ p.z)
    (h : (num + 1) * p.x ≤ p.y ∨ (num + 1) * p.x ≤ p.z ∨ (num + 1) * p.z ≤ p.y) : decompLoop num fuel p = none := by
  induction fuel generalizing p with
  | zero => rfl
  | succ n ih =>
    have hnum' : (1 : ℝ) ≤ num := by exact_mod_cast hnum
    have big : ∀ a b : ℝ, (num + 1) * a ≤ b → 0 < ⌊a⌋₊ → num + 1 ≤ (⌊b⌋₊ : Int) := by
      intro a b hab ha
      have h1 : (1 : ℝ) ≤ a := by have := Nat.floor_pos.mp ha; exact this
      have h2 : ((num + 1).toNat : ℝ) ≤ b := by
        have : (((num + 1).toNat : Int) : ℝ) = num + 1 := by rw [Int.toNat_of_nonneg (by omega)]; push_cast; ring
        rw [Int.cast_natCast] at this
        rw [this]
        nlinarith
      have := Nat.le_floor h2
      omega
    have fl : ∀ t : ℝ, t ≤ (⌊t⌋₊ : ℝ) + 1 := fun t => (Nat.lt_floor_add_one t).le
    have grow3 : 0 < ⌊p.x⌋₊ → 0 < ⌊p.y⌋₊ → 0 < ⌊p.z⌋₊ → p.est > num := by
      intro a b c
      have a' : (1 : Int) ≤ ⌊p.x⌋₊ := by exact_mod_cast a
      have b' : (1 : Int) ≤ ⌊p.y⌋₊ := by exact_mod_cast b
      have c' : (1 : Int) ≤ ⌊p.z⌋₊ := by exact_mod_cast c
      rw [Parts.est]
      have q1 : (1 : Int) ≤ ⌊p.y⌋₊ * ⌊p.x⌋₊ := by nlinarith
      have q2 : (1 : Int) ≤ ⌊p.x⌋₊ * ⌊p.z⌋₊ := by nlinarith
      rcases h with h | h | h
      · have := big _ _ h a
        nlinarith
      · have := big _ _ h a
        nlinarith
      · have := big _ _ h c
        nlinarith
    rw [decompLoop]
    by_cases h1 : p.est > num
    · rw [decompStep, if_pos h1]
      refine ih _ (by norm_num; linarith) (by norm_num; linarith) (by norm_num; linarith) ?_
      rcases h with h | h | h
      · left; show (num + 1) * (p.x * 0.99) ≤ p.y * 0.99; norm_num; linarith
      · right; left; show (num + 1) * (p.x * 0.99) ≤ p.z * 0.99; norm_num; linarith
      · right; right; show (num + 1) * (p.z * 0.99) ≤ p.y * 0.99; norm_num; linarith
    · have h0 : ⌊p.x⌋₊ = 0 ∨ ⌊p.y⌋₊ = 0 ∨ ⌊p.z⌋₊ = 0 := by
        by_contra hc
        push_neg at hc
        exact h1 (grow3 (Nat.pos_of_ne_zero hc.1) (Nat.pos_of_ne_zero hc.2.1) (Nat.pos_of_ne_zero hc.2.2))
      have he : p.est = 0 := by
        rw [Parts.est]
        rcases h0 with e | e | e <;> simp [e]
      rw [step_small (by omega), if_neg]
      · by_cases h2 : 2 + (num - p.est) < ⌊p.x⌋₊ * ⌊p.z⌋₊
        · rw [if_pos h2]
          refine ih _ hx hy (by positivity) ?_
          rcases h with h | h | h
          · left; exact h
          · right; left; exact h.trans (fl _)
          · exfalso
            have hz0 : 0 < ⌊p.z⌋₊ := Nat.pos_of_ne_zero fun e => by rw [e] at h2; simp at h2; omega
            have hx0 : 0 < ⌊p.x⌋₊ := Nat.pos_of_ne_zero fun e => by rw [e] at h2; simp at h2; omega
            have := big _ _ h hz0
            omega
        · rw [if_neg h2]
          refine ih _ hx (by positivity) hz ?_
          rcases h with h | h | h
          · left; exact h.trans (fl _)
          · right; left; exact h
          · right; right; exact h.trans (fl _)
      · rintro ⟨a, b, c⟩
        rcases h0 with e | e | e
        · rw [e] at b; simp at b; omega
        · rw [e] at a; simp at a; omega
        · rw [e] at a; simp at a; omega

/-- C162 is violated for long boxes: if the box is much longer along the second axis than along the first or third, or along the third
than along the first, the decomposition never returns. -/
theorem C162_violated_elongated {mn mx : V3} {num : Int} (hnum : 1 ≤ num) (hb : ∀ a, mn a < mx a)
    (h : (num + 1) * ⌊200 * (mx 0 - mn 0)⌋₊ ≤ (⌊200 * (mx 1 - mn 1)⌋₊ : Int) ∨ (num + 1) * ⌊200 * (mx 0 - mn 0)⌋₊ ≤ (⌊200 * (mx 2 - mn 2)⌋₊ : Int) ∨
      (num + 1) * ⌊200 * (mx 2 - mn 2)⌋₊ ≤ (⌊200 * (mx 1 - mn 1)⌋₊ : Int)) (fuel : Nat) : globaldomain fuel mn mx num 0 = none := by
  rw [globaldomain, if_pos (by simp), side_eq hb, never num hnum]
  · rfl
  · exact Nat.cast_nonneg _
  · exact Nat.cast_nonneg _
  · exact Nat.cast_nonneg _
  · rcases h with h | h | h
    · left; dsimp only; exact_mod_cast h
    · right; left; dsimp only; exact_mod_cast h
    · right; right; dsimp only; exact_mod_cast h

/-- A column ten times as long as wide, and eight subdomains. -/
example (fuel : Nat) : globaldomain fuel 0 ![1, 10, 1] 8 0 = none := by
  refine C162_violated_elongated (by norm_num) (by intro a; fin_cases a <;> simp) ?_ fuel
  left
  have h1 : ⌊200 * ((![1, 10, 1] : V3) 0 - (0 : V3) 0)⌋₊ = 200 := by simp
  have h2 : ⌊200 * ((![1, 10, 1] : V3) 1 - (0 : V3) 1)⌋₊ = 2000 := by simp; norm_num
  rw [h1, h2]
  norm_num

/-- C162 is violated for flat boxes: there is an exception. -/
theorem C162_violated_flat {mn mx : V3} (num : Int) (fuel : Nat) (h : ∃ a, mx a = mn a) : globaldomain fuel mn mx num 0 = some .throws := by
  rw [globaldomain, if_pos (by simp), sideDecomposition, leastSquares_none]
  · rfl
  · obtain ⟨a, ha⟩ := h
    fin_cases a
    · left; simpa [sub_eq_zero] using ha
    · right; left; simpa [sub_eq_zero] using ha
    · right; right; simpa [sub_eq_zero] using ha

/-- A square of no thickness. -/
example : globaldomain 5 0 ![1, 1, 0] 4 0 = some .throws := C162_violated_flat 4 5 ⟨2, by simp⟩

end Verif.Decomp
