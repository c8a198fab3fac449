import Verif.Meas.StressProps

/-!
# Box of spheres, fabric and decomposed stress

**C191** `aabbExtrema` is the smallest box around all spheres, cut at its boundaries as asked.
**C186** `fabricTensor` is the mean of `n⊗n` over the contacts in the box; its strong and weak parts make up the whole.
**C185** `normalShearStressTensors` decomposes the stress.
-/
namespace Verif.Meas
open Verif Verif.Mech Matrix

/-! ### C191 -/

/-- body number `i` is a sphere with this centre and radius -/
def IsSphere (s : MScene) (p : V3) (r : ℝ) : Prop := ∃ (i : Nat) (b : MBody), s.bodies[i]? = some (some b) ∧ b.shape = .sphere r ∧ b.pos = p

/-- the smallest box around all spheres, of which there is one at least -/
structure IsBox (s : MScene) (lo hi : V3) : Prop where
  encloses : ∀ p r, IsSphere s p r → ∀ a, lo a ≤ p a - r ∧ p a + r ≤ hi a
  touches : ∀ a, (∃ p r, IsSphere s p r ∧ p a - r = lo a) ∧ (∃ p r, IsSphere s p r ∧ p a + r = hi a)

/-- spheres of a list -/
def SphereIn (l : List (Option MBody)) (p : V3) (r : ℝ) : Prop := ∃ b, some b ∈ l ∧ b.shape = .sphere r ∧ b.pos = p

theorem isSphere_iff (s : MScene) (p : V3) (r : ℝ) : IsSphere s p r ↔ SphereIn s.bodies p r := by
  constructor
  · rintro ⟨i, b, h, hs, hp⟩
    exact ⟨b, List.mem_of_getElem? h, hs, hp⟩
  · rintro ⟨b, h, hs, hp⟩
    obtain ⟨i, hi⟩ := List.mem_iff_getElem?.mp h
    exact ⟨i, b, hi, hs, hp⟩

/-- the box of the spheres of a list: `none` if there are none -/
def BoxIn (l : List (Option MBody)) : Option (V3 × V3) → Prop
  | none => ∀ p r, ¬ SphereIn l p r
  | some (lo, hi) => (∀ p r, SphereIn l p r → ∀ a, lo a ≤ p a - r ∧ p a + r ≤ hi a) ∧
      ∀ a, (∃ p r, SphereIn l p r ∧ p a - r = lo a) ∧ (∃ p r, SphereIn l p r ∧ p a + r = hi a)

theorem sphereIn_append (l : List (Option MBody)) (x : Option MBody) (p : V3) (r : ℝ) :
    SphereIn (l ++ [x]) p r ↔ SphereIn l p r ∨ ∃ b, x = some b ∧ b.shape = .sphere r ∧ b.pos = p := by
  constructor
  · rintro ⟨b, h, hs, hp⟩
    rcases List.mem_append.mp h with h | h
    · exact .inl ⟨b, h, hs, hp⟩
    · exact .inr ⟨b, (List.mem_singleton.mp h).symm, hs, hp⟩
  · rintro (⟨b, h, hs, hp⟩ | ⟨b, h, hs, hp⟩)
    · exact ⟨b, List.mem_append_left _ h, hs, hp⟩
    · exact ⟨b, List.mem_append_right _ (by rw [h]; simp), hs, hp⟩

theorem boxIn_step (l : List (Option MBody)) (acc : Option (V3 × V3)) (x : Option MBody) (h : BoxIn l acc) :
    BoxIn (l ++ [x]) (aabbStep acc x) := by
  have nothing : (∀ b r, x = some b → b.shape ≠ .sphere r) → BoxIn (l ++ [x]) acc := by
    intro hx
    have e : ∀ p r, SphereIn (l ++ [x]) p r ↔ SphereIn l p r := by
      intro p r
      rw [sphereIn_append]
      refine ⟨?_, .inl⟩
      rintro (h | ⟨b, hb, hs, -⟩)
      · exact h
      · exact absurd hs (hx b r hb)
    cases acc with
    | none => intro p r; rw [e]; exact h p r
    | some q =>
      refine ⟨fun p r hp => h.1 p r ((e p r).mp hp), fun a => ⟨?_, ?_⟩⟩
      · obtain ⟨p, r, hp, q⟩ := (h.2 a).1; exact ⟨p, r, (e p r).mpr hp, q⟩
      · obtain ⟨p, r, hp, q⟩ := (h.2 a).2; exact ⟨p, r, (e p r).mpr hp, q⟩
  cases x with
  | none => exact nothing fun b r h => by cases h
  | some b =>
    cases hs : b.shape with
    | clump ms =>
      rw [aabbStep, hs]
      exact nothing fun b' r hb => by cases hb; rw [hs]; simp
    | gridNode =>
      rw [aabbStep, hs]
      exact nothing fun b' r hb => by cases hb; rw [hs]; simp
    | other =>
      rw [aabbStep, hs]
      exact nothing fun b' r hb => by cases hb; rw [hs]; simp
    | sphere r =>
      rw [aabbStep, hs]
      have new : SphereIn (l ++ [some b]) b.pos r := (sphereIn_append _ _ _ _).mpr (.inr ⟨b, rfl, hs, rfl⟩)
      have old : ∀ p r', SphereIn l p r' → SphereIn (l ++ [some b]) p r' := fun p r' h => (sphereIn_append _ _ _ _).mpr (.inl h)
      cases acc with
      | none =>
        refine ⟨?_, fun a => ⟨⟨b.pos, r, new, rfl⟩, ⟨b.pos, r, new, rfl⟩⟩⟩
        intro p r' hp a
        rcases (sphereIn_append _ _ _ _).mp hp with hp | ⟨b', hb, hs', hp'⟩
        · exact absurd hp (h p r')
        · cases hb; rw [hs] at hs'; cases hs'; subst hp'; exact ⟨le_refl _, le_refl _⟩
      | some q =>
        obtain ⟨lo, hi⟩ := q
        obtain ⟨h1, h2⟩ := h
        refine ⟨?_, fun a => ⟨?_, ?_⟩⟩
        · intro p r' hp a
          rcases (sphereIn_append _ _ _ _).mp hp with hp | ⟨b', hb, hs', hp'⟩
          · exact ⟨(min_le_left _ _).trans (h1 p r' hp a).1, (h1 p r' hp a).2.trans (le_max_left _ _)⟩
          · cases hb; rw [hs] at hs'; cases hs'; subst hp'; exact ⟨min_le_right _ _, le_max_right _ _⟩
        · obtain ⟨p, r', hp, e⟩ := (h2 a).1
          rcases le_total (lo a) (b.pos a - r) with c | c
          · exact ⟨p, r', old p r' hp, by dsimp only; rw [min_eq_left c, e]⟩
          · exact ⟨b.pos, r, new, by dsimp only; rw [min_eq_right c]⟩
        · obtain ⟨p, r', hp, e⟩ := (h2 a).2
          rcases le_total (hi a) (b.pos a + r) with c | c
          · exact ⟨b.pos, r, new, by dsimp only; rw [max_eq_right c]⟩
          · exact ⟨p, r', old p r' hp, by dsimp only; rw [max_eq_left c, e]⟩

theorem boxIn_fold (l l' : List (Option MBody)) (acc : Option (V3 × V3)) (h : BoxIn l' acc) :
    BoxIn (l' ++ l) (l.foldl aabbStep acc) := by
  induction l generalizing l' acc with
  | nil => simpa using h
  | cons x l ih =>
    have := ih (l' ++ [x]) _ (boxIn_step l' acc x h)
    simpa using this

theorem boxIn_all (s : MScene) : BoxIn s.bodies (s.bodies.foldl aabbStep none) := by
  have := boxIn_fold s.bodies [] none (fun p r ⟨b, h, _⟩ => by cases h)
  simpa using this

/-- **C191.** With a cutoff between 0 and 1 the smallest box around all spheres is returned, each side cut by half of the cutoff,
so that the box keeps its centre and has `1-cutoff` of its size; without spheres there is no box; other cutoffs are refused. -/
theorem C191_box (s : MScene) (c : ℝ) :
    (c < 0 ∨ 1 < c → aabbExtrema s c = .throws) ∧
    (0 ≤ c → c ≤ 1 → (∀ p r, ¬ IsSphere s p r) → aabbExtrema s c = .ok none) ∧
    (0 ≤ c → c ≤ 1 → (∃ p r, IsSphere s p r) → ∃ lo hi lo' hi', IsBox s lo hi ∧ aabbExtrema s c = .ok (some (lo', hi')) ∧
      lo' + hi' = lo + hi ∧ hi' - lo' = (1 - c) • (hi - lo)) := by
  have hb := boxIn_all s
  refine ⟨fun h => if_pos h, fun h0 h1 hn => ?_, fun h0 h1 ⟨p, r, hp⟩ => ?_⟩
  · rw [aabbExtrema, if_neg (by push Not; exact ⟨h0, h1⟩)]
    cases e : s.bodies.foldl aabbStep none with
    | none => rfl
    | some q =>
      obtain ⟨lo, hi⟩ := q
      rw [e] at hb
      obtain ⟨p, r, hp, -⟩ := (hb.2 0).1
      exact absurd ((isSphere_iff _ _ _).mpr hp) (hn p r)
  · rw [aabbExtrema, if_neg (by push Not; exact ⟨h0, h1⟩)]
    cases e : s.bodies.foldl aabbStep none with
    | none => rw [e] at hb; exact absurd ((isSphere_iff _ _ _).mp hp) (hb p r)
    | some q =>
      obtain ⟨lo, hi⟩ := q
      rw [e] at hb
      refine ⟨lo, hi, _, _, ⟨fun p r h => hb.1 p r ((isSphere_iff _ _ _).mp h), fun a => ⟨?_, ?_⟩⟩, rfl, ?_, ?_⟩
      · obtain ⟨p, r, hp, e⟩ := (hb.2 a).1; exact ⟨p, r, (isSphere_iff _ _ _).mpr hp, e⟩
      · obtain ⟨p, r, hp, e⟩ := (hb.2 a).2; exact ⟨p, r, (isSphere_iff _ _ _).mpr hp, e⟩
      · abel
      · module

/-! ### C186 -/

/-- a contact whose contact point lies in the box around all spheres cut by `c` -/
structure Counted (s : MScene) (c : ℝ) (I : MIntr) : Prop where
  real_eq : I.real = true
  inside : ∃ lo hi, IsBox s lo hi ∧
    ∀ a, lo a + c / 2 * (hi a - lo a) ≤ I.contactPoint a ∧ I.contactPoint a ≤ hi a - c / 2 * (hi a - lo a)

open Classical in
/-- the contacts that count -/
noncomputable def counted (s : MScene) (c : ℝ) : List MIntr := s.intrs.filter fun I => decide (Counted s c I)

/-- the documented tensor `1/n Σ n⊗n` of a list of contacts -/
noncomputable def meanDyad (l : List MIntr) : M3 := (l.length : ℝ)⁻¹ • (l.map fun I => vecMulVec I.normal I.normal).sum

/-- the normal force, tension positive -/
def tension (I : MIntr) : ℝ := -(I.normalForce 0 * I.normal 0 + I.normalForce 1 * I.normal 1 + I.normalForce 2 * I.normal 2)

/-- the mean of it -/
noncomputable def meanTension (l : List MIntr) : ℝ := (l.map tension).sum / l.length

open Classical in
/-- the contacts more compressed than a threshold -/
noncomputable def strongOf (t : ℝ) (l : List MIntr) : List MIntr := l.filter fun I => decide (tension I < t)

open Classical in
/-- the others -/
noncomputable def weakOf (t : ℝ) (l : List MIntr) : List MIntr := l.filter fun I => decide (t ≤ tension I)

theorem mirror_upper (l : List MIntr) (f : MIntr → ℝ) (a b : MIntr → V3) (i j : Fin 3) :
    mirror ((l.map fun I => f I • upper (a I) (b I)).sum) i j =
      (l.map fun I => f I * if i ≤ j then a I i * b I j else a I j * b I i).sum := by
  unfold mirror
  rw [Matrix.of_apply]
  by_cases h : i ≤ j
  · simp only [if_pos h]
    rw [sum_entry]
    simp [upper, h]
  · have h' : j ≤ i := le_of_not_ge h
    simp only [if_neg h]
    rw [sum_entry]
    simp [upper, h']

theorem mirror_dyads (l : List MIntr) :
    mirror (l.foldl (fun m I => m + upper I.normal I.normal) 0) = (l.map fun I => vecMulVec I.normal I.normal).sum := by
  rw [foldl_sum, zero_add]
  have e : (l.map fun I => upper I.normal I.normal) = l.map fun I => (1 : ℝ) • upper I.normal I.normal := by simp
  rw [e]
  ext i j
  rw [mirror_upper, sum_entry]
  congr 1
  refine List.map_congr_left fun I _ => ?_
  rw [vecMulVec_entry, one_mul]
  by_cases h : i ≤ j
  · rw [if_pos h]
  · rw [if_neg h, mul_comm]

theorem fabricOf_eq (l : List MIntr) (h : l ≠ []) : fabricOf l = some (meanDyad l) := by
  rw [fabricOf, if_neg (by simpa using h), mirror_dyads]; rfl

theorem fabricOf_nil : fabricOf [] = none := rfl

theorem signedForce_eq (I : MIntr) : signedForce I = tension I := rfl

theorem meanForce_eq (l : List MIntr) (h : l ≠ []) : meanForce l = some (meanTension l) := by
  rw [meanForce, if_neg (by simpa using h), foldl_sum, zero_add]; rfl

open Classical in
theorem picked_eq (s : MScene) (c : ℝ) (h0 : 0 ≤ c) (h1 : c ≤ 1) :
    ∃ e, aabbExtrema s c = .ok e ∧ picked s e = counted s c := by
  obtain ⟨-, hn, hs⟩ := C191_box s c
  by_cases hx : ∃ p r, IsSphere s p r
  · have hb := boxIn_all s
    rw [aabbExtrema, if_neg (by push Not; exact ⟨h0, h1⟩)]
    obtain ⟨p, r, hp⟩ := hx
    cases e : s.bodies.foldl aabbStep none with
    | none => rw [e] at hb; exact absurd ((isSphere_iff _ _ _).mp hp) (hb p r)
    | some q =>
      obtain ⟨lo, hi⟩ := q
      rw [e] at hb
      have hB : IsBox s lo hi := by
        refine ⟨fun p r h => hb.1 p r ((isSphere_iff _ _ _).mp h), fun a => ⟨?_, ?_⟩⟩
        · obtain ⟨p, r, hp, e⟩ := (hb.2 a).1; exact ⟨p, r, (isSphere_iff _ _ _).mpr hp, e⟩
        · obtain ⟨p, r, hp, e⟩ := (hb.2 a).2; exact ⟨p, r, (isSphere_iff _ _ _).mpr hp, e⟩
      refine ⟨_, rfl, ?_⟩
      unfold picked counted
      refine List.filter_congr fun I _ => ?_
      simp only [Option.map_some, inBox]
      rw [Bool.eq_iff_iff, Bool.and_eq_true, decide_eq_true_iff, decide_eq_true_iff]
      constructor
      · rintro ⟨hr, hin⟩
        refine ⟨hr, lo, hi, hB, fun a => ?_⟩
        have := hin a
        simp only [Pi.add_apply, Pi.sub_apply, Pi.smul_apply, smul_eq_mul] at this
        constructor <;> nlinarith [this.1, this.2]
      · rintro ⟨hr, lo', hi', hB', hin⟩
        refine ⟨hr, fun a => ?_⟩
        have el : lo' a = lo a := by
          obtain ⟨p, r, hp, e⟩ := (hB.touches a).1
          obtain ⟨p', r', hp', e'⟩ := (hB'.touches a).1
          have := (hB.encloses p' r' hp' a).1
          have := (hB'.encloses p r hp a).1
          linarith
        have eh : hi' a = hi a := by
          obtain ⟨p, r, hp, e⟩ := (hB.touches a).2
          obtain ⟨p', r', hp', e'⟩ := (hB'.touches a).2
          have := (hB.encloses p' r' hp' a).2
          have := (hB'.encloses p r hp a).2
          linarith
        have := hin a
        rw [el, eh] at this
        simp only [Pi.add_apply, Pi.sub_apply, Pi.smul_apply, smul_eq_mul]
        constructor <;> nlinarith [this.1, this.2]
  · push Not at hx
    refine ⟨_, hn h0 h1 hx, ?_⟩
    unfold picked counted
    rw [List.filter_eq_nil_iff.mpr, List.filter_eq_nil_iff.mpr]
    · intro I _
      simp only [decide_eq_true_iff]
      rintro ⟨-, lo, hi, hB, -⟩
      obtain ⟨p, r, hp, -⟩ := (hB.touches 0).1
      exact hx p r hp
    · intro I _; simp [inBox]

theorem below_some (x t : ℝ) : below x (some t) = decide (x < t) := rfl

theorem fabric_eq (s : MScene) (c : ℝ) (h0 : 0 ≤ c) (h1 : c ≤ 1) (thr : Option ℝ) (hne : counted s c ≠ []) :
    fabricTensor s c thr = .ok
      { mean := some (meanTension (counted s c)), all := some (meanDyad (counted s c)),
        strong := fabricOf (strongOf (thr.getD (meanTension (counted s c))) (counted s c)),
        weak := fabricOf (weakOf (thr.getD (meanTension (counted s c))) (counted s c)) } := by
  obtain ⟨e, he, hp⟩ := picked_eq s c h0 h1
  rw [fabricTensor, he, Res.bind_ok, hp]
  simp only
  rw [meanForce_eq _ hne, fabricOf_eq _ hne]
  have ht : splitAt thr (some (meanTension (counted s c))) = some (thr.getD (meanTension (counted s c))) := by
    cases thr <;> rfl
  simp only [ht, signedForce_eq]
  congr 2
  refine congrArg fabricOf (List.filter_congr fun I _ => ?_)
  rw [below_some]
  by_cases h : tension I < thr.getD (meanTension (counted s c))
  · simp [h, not_le.mpr h]
  · simp [h, not_lt.mp h]

theorem dot_sum_dyads (l : List MIntr) (x : V3) :
    dot x ((l.map fun I => vecMulVec I.normal I.normal).sum *ᵥ x) = (l.map fun I => (dot I.normal x) ^ 2).sum := by
  induction l with
  | nil => simp [dot]
  | cons I l ih =>
    simp only [List.map_cons, List.sum_cons, add_mulVec]
    have : ∀ u v w : V3, dot u (v + w) = dot u v + dot u w := by intro u v w; simp only [dot, Pi.add_apply]; ring
    rw [this, ih]
    congr 1
    simp [dot, mulVec, dotProduct, vecMulVec_entry, Fin.sum_univ_three]
    ring

theorem trace_sum_dyads (l : List MIntr) (hu : ∀ I ∈ l, sqNorm I.normal = 1) :
    ((l.map fun I => vecMulVec I.normal I.normal).sum).trace = l.length := by
  induction l with
  | nil => simp
  | cons I l ih =>
    have := hu I (by simp)
    simp only [List.map_cons, List.sum_cons, trace_add, List.length_cons, Nat.cast_add, Nat.cast_one]
    rw [ih fun J hJ => hu J (by simp [hJ])]
    have e : (vecMulVec I.normal I.normal).trace = sqNorm I.normal := by
      simp [trace, Fin.sum_univ_three, vecMulVec_entry, sqNorm, dot]
    rw [e, this]; ring

theorem meanDyad_props (l : List MIntr) (hne : l ≠ []) (hu : ∀ I ∈ l, sqNorm I.normal = 1) :
    (meanDyad l).transpose = meanDyad l ∧ (meanDyad l).trace = 1 ∧ ∀ x, 0 ≤ dot x (meanDyad l *ᵥ x) := by
  have hl : (0 : ℝ) < l.length := by
    have := List.length_pos_iff.mpr hne
    exact_mod_cast this
  refine ⟨?_, ?_, fun x => ?_⟩
  · unfold meanDyad
    rw [Matrix.transpose_smul, sum_transpose]
    congr 2
    refine List.map_congr_left fun I _ => ?_
    rw [transpose_vecMulVec]
  · unfold meanDyad
    rw [trace_smul, trace_sum_dyads l hu, smul_eq_mul, inv_mul_cancel₀ hl.ne']
  · unfold meanDyad
    rw [smul_mulVec]
    have : ∀ (c : ℝ) (u v : V3), dot u (c • v) = c * dot u v := by intro c u v; simp only [dot, Pi.smul_apply, smul_eq_mul]; ring
    rw [this, dot_sum_dyads]
    refine mul_nonneg (inv_nonneg.mpr hl.le) (List.sum_nonneg ?_)
    intro y hy
    obtain ⟨I, -, rfl⟩ := List.mem_map.mp hy
    positivity

open Classical in
/-- **C186 (tensor).** If there is a contact that counts, the fabric tensor is the mean of `n⊗n` over those that do; with unit
normals it is symmetric, non-negative and of trace 1. -/
theorem C186_tensor_partial (s : MScene) (c : ℝ) (h0 : 0 ≤ c) (h1 : c ≤ 1) (thr : Option ℝ) (hne : counted s c ≠ [])
    (hu : ∀ I ∈ s.intrs, I.real = true → sqNorm I.normal = 1) :
    ∃ f F, fabricTensor s c thr = .ok f ∧ f.all = some F ∧ F = meanDyad (counted s c) ∧
      F.transpose = F ∧ F.trace = 1 ∧ ∀ x, 0 ≤ dot x (F *ᵥ x) := by
  refine ⟨_, _, fabric_eq s c h0 h1 thr hne, rfl, rfl, meanDyad_props _ hne ?_⟩
  intro I hI
  have hI := List.mem_filter.mp hI
  exact hu I hI.1 (of_decide_eq_true hI.2).real_eq

theorem split_sum (t : ℝ) (l : List MIntr) : (l.length : ℝ) • meanDyad l =
    ((strongOf t l).length : ℝ) • meanDyad (strongOf t l) + ((weakOf t l).length : ℝ) • meanDyad (weakOf t l) := by
  have cancel : ∀ l : List MIntr, (l.length : ℝ) • meanDyad l = (l.map fun I => vecMulVec I.normal I.normal).sum := by
    intro l
    unfold meanDyad
    rw [smul_smul]
    by_cases h : l = []
    · subst h; simp
    · have : (l.length : ℝ) ≠ 0 := by
        have := List.length_pos_iff.mpr h
        positivity
      rw [mul_inv_cancel₀ this, one_smul]
  rw [cancel, cancel, cancel]
  unfold strongOf weakOf
  rw [sum_filter_map, sum_filter_map, ← sum_map_add']
  congr 1
  refine List.map_congr_left fun I _ => ?_
  by_cases h : tension I < t
  · simp [h]
  · simp [h, not_lt.mp h]

theorem split_length (t : ℝ) (l : List MIntr) : (strongOf t l).length + (weakOf t l).length = l.length := by
  induction l with
  | nil => rfl
  | cons I l ih =>
    unfold strongOf weakOf at *
    by_cases h : tension I < t
    · simp only [List.filter_cons, h, decide_true, if_true, not_le.mpr h, decide_false, Bool.false_eq_true, if_false,
        List.length_cons]; omega
    · simp only [List.filter_cons, h, decide_true, if_true, not_lt.mp h, decide_false, Bool.false_eq_true, if_false,
        List.length_cons]; omega

/-- **C186 (split).** Contacts more compressed than the threshold, or than the mean if there is none, are strong, the others
weak.  If there are contacts of both kinds, the tensors of the two parts are their means of `n⊗n`, and the fabric tensor is
their average weighted by their numbers. -/
theorem C186_split_partial (s : MScene) (c : ℝ) (h0 : 0 ≤ c) (h1 : c ≤ 1) (thr : Option ℝ) (hne : counted s c ≠ [])
    (t : ℝ) (ht : t = thr.getD (meanTension (counted s c)))
    (hs : strongOf t (counted s c) ≠ []) (hw : weakOf t (counted s c) ≠ []) :
    ∃ f A B F, fabricTensor s c thr = .ok f ∧ f.strong = some A ∧ f.weak = some B ∧ f.all = some F ∧
      A = meanDyad (strongOf t (counted s c)) ∧ B = meanDyad (weakOf t (counted s c)) ∧
      (strongOf t (counted s c)).length + (weakOf t (counted s c)).length = (counted s c).length ∧
      ((counted s c).length : ℝ) • F =
        ((strongOf t (counted s c)).length : ℝ) • A + ((weakOf t (counted s c)).length : ℝ) • B := by
  subst ht
  exact ⟨_, _, _, _, fabric_eq s c h0 h1 thr hne, fabricOf_eq _ hs, fabricOf_eq _ hw, rfl, rfl, rfl, split_length _ _,
    split_sum _ _⟩

/-- the contact in another direction -/
def pressedY : MIntr := { pressed with id2 := 3, normalForce := ![0, 9, 0], normal := ![0, 1, 0], contactPoint := ![0, 1, 0] }

/-- three spheres -/
noncomputable def corner : MScene :=
  { pair with bodies := pair.bodies ++ [some (ball ![0, 2, 0] 1)], intrs := pair.intrs ++ [pressedY], periodic := true }

theorem corner_box : IsBox corner ![-1, -1, -1] ![3, 3, 1] := by
  have hs : ∀ p r, IsSphere corner p r ↔ r = 1 ∧ (p = 0 ∨ p = ![2, 0, 0] ∨ p = ![0, 2, 0]) := by
    intro p r
    rw [isSphere_iff]
    constructor
    · rintro ⟨b, hb, h1, h2⟩
      simp only [corner, pair, List.cons_append, List.nil_append, List.mem_cons, List.not_mem_nil, or_false, Option.some.injEq,
        reduceCtorEq, false_or] at hb
      rcases hb with rfl | rfl | rfl <;> simp only [ball, MShape.sphere.injEq] at h1 <;> subst h1 h2 <;> simp [ball]
    · rintro ⟨rfl, rfl | rfl | rfl⟩
      · exact ⟨ball 0 1, by simp [corner, pair], rfl, rfl⟩
      · exact ⟨ball ![2, 0, 0] 1, by simp [corner, pair], rfl, rfl⟩
      · exact ⟨ball ![0, 2, 0] 1, by simp [corner, pair], rfl, rfl⟩
  constructor
  · intro p r h a
    obtain ⟨rfl, rfl | rfl | rfl⟩ := (hs p r).mp h <;> fin_cases a <;> norm_num
  · intro a
    refine ⟨⟨0, 1, (hs _ _).mpr ⟨rfl, .inl rfl⟩, by fin_cases a <;> norm_num⟩, ?_⟩
    fin_cases a
    · exact ⟨![2, 0, 0], 1, (hs _ _).mpr ⟨rfl, .inr (.inl rfl)⟩, by norm_num⟩
    · exact ⟨![0, 2, 0], 1, (hs _ _).mpr ⟨rfl, .inr (.inr rfl)⟩, by norm_num⟩
    · exact ⟨0, 1, (hs _ _).mpr ⟨rfl, .inl rfl⟩, by norm_num⟩

open Classical in
theorem corner_counted : counted corner 0 = [pressed, pressedY] := by
  have h1 : Counted corner 0 pressed := by
    refine ⟨rfl, _, _, corner_box, fun a => ?_⟩
    fin_cases a <;> norm_num [pressed]
  have h2 : Counted corner 0 pressedY := by
    refine ⟨rfl, _, _, corner_box, fun a => ?_⟩
    fin_cases a <;> norm_num [pressed, pressedY]
  have h3 : ¬ Counted corner 0 { pressed with real := false, id1 := 1, id2 := 7 } := fun h => by cases h.real_eq
  unfold counted
  show List.filter _ [pressed, { pressed with real := false, id1 := 1, id2 := 7 }, pressedY] = _
  rw [List.filter_cons, if_pos (decide_eq_true h1), List.filter_cons, if_neg (by simpa using h3), List.filter_cons,
    if_pos (decide_eq_true h2), List.filter_nil]

/-- the hypotheses are met: the contact along y is the strong one -/
example : ∃ f A B F, fabricTensor corner 0 none = .ok f ∧ f.strong = some A ∧ f.weak = some B ∧ f.all = some F ∧
    A = !![0, 0, 0; 0, 1, 0; 0, 0, 0] ∧ F = !![1 / 2, 0, 0; 0, 1 / 2, 0; 0, 0, 0] := by
  have t1 : tension pressed = -5 := by simp [tension, pressed]
  have t2 : tension pressedY = -9 := by simp [tension, pressed, pressedY]
  have hm : meanTension (counted corner 0) = -7 := by
    rw [corner_counted, meanTension]; simp [t1, t2]; norm_num
  have hs : strongOf (-7) (counted corner 0) = [pressedY] := by
    rw [corner_counted, strongOf]; simp [List.filter_cons, t1, t2]; norm_num
  have hw : weakOf (-7) (counted corner 0) = [pressed] := by
    rw [corner_counted, weakOf]; simp [List.filter_cons, t1, t2]; norm_num
  obtain ⟨f, A, B, F, e1, e2, e3, e4, e5, e6, -, e7⟩ := C186_split_partial corner 0 (le_refl _) (by norm_num) none
    (by rw [corner_counted]; simp) (-7) (by simp [hm]) (by rw [hs]; simp) (by rw [hw]; simp)
  refine ⟨f, A, B, F, e1, e2, e3, e4, ?_, ?_⟩
  · rw [e5, hs]
    ext i j; fin_cases i <;> fin_cases j <;> simp [meanDyad, vecMulVec_entry, pressedY, pressed]
  · obtain ⟨f', F', d1, d2, d3, -⟩ := C186_tensor_partial corner 0 (le_refl _) (by norm_num) none
      (by rw [corner_counted]; simp) (by
        intro I hI hr
        simp only [corner, pair, List.cons_append, List.nil_append, List.mem_cons, List.not_mem_nil, or_false] at hI
        rcases hI with rfl | rfl | rfl
        · simp [sqNorm, dot, pressed]
        · cases hr
        · simp [sqNorm, dot, pressed, pressedY])
    rw [e1] at d1
    cases d1
    rw [e4] at d2
    cases d2
    rw [d3, corner_counted]
    ext i j; fin_cases i <;> fin_cases j <;> simp [meanDyad, vecMulVec_entry, pressedY, pressed] <;> norm_num

open Classical in
/-- **C186 fails if all contacts carry the same force**, a packing with a single contact for instance: no contact is stronger than
the mean, and the strong part is 0 divided by 0, not a number. -/
theorem C186_violated_equal : ∃ s : MScene, counted s 0 ≠ [] ∧ ∃ f, fabricTensor s 0 none = .ok f ∧ f.all ≠ none ∧ f.strong = none := by
  let s : MScene := { corner with intrs := [pressed] }
  have hB : IsBox s ![-1, -1, -1] ![3, 3, 1] := ⟨corner_box.encloses, corner_box.touches⟩
  have hc : counted s 0 = [pressed] := by
    have h1 : Counted s 0 pressed := by
      refine ⟨rfl, _, _, hB, fun a => ?_⟩
      fin_cases a <;> norm_num [pressed]
    unfold counted
    show List.filter _ [pressed] = _
    rw [List.filter_cons, if_pos (decide_eq_true h1), List.filter_nil]
  refine ⟨s, by rw [hc]; simp, _, fabric_eq s 0 (le_refl _) (by norm_num) none (by rw [hc]; simp), by simp, ?_⟩
  have : strongOf (meanTension (counted s 0)) (counted s 0) = [] := by
    rw [hc, strongOf, meanTension]; simp
  show fabricOf (strongOf (meanTension (counted s 0)) (counted s 0)) = none
  rw [this, fabricOf_nil]

/-- **C186 fails without contacts that count**: the tensor is not a number either. -/
theorem C186_violated_empty (s : MScene) (h : counted s 0 = []) :
    ∃ f, fabricTensor s 0 none = .ok f ∧ f.all = none ∧ f.mean = none := by
  obtain ⟨e, he, hp⟩ := picked_eq s 0 (le_refl _) (by norm_num)
  rw [fabricTensor, he, Res.bind_ok, hp, h]
  exact ⟨_, rfl, rfl, rfl⟩

/-! ### C185 -/

/-- a contact as sphere contacts are: unit normal from the first to the second body, the normal force along it, and the distance of
the bodies the sum of their reference radii (no overlap) -/
structure Regular (s : MScene) (I : MIntr) : Prop where
  sound : Sound s I
  unit : sqNorm I.normal = 1
  along : ∃ N : ℝ, I.normalForce = N • I.normal
  distance : place s I.id2 + jump s I - place s I.id1 = (I.refR1 + I.refR2) • I.normal

theorem shearPart_eq (cp : Bool) (I : MIntr) : shearPart cp I = (contactR I * signOf cp) • upper I.normal I.shearForce := by
  unfold shearPart
  by_cases h : 0 < norm3 (signOf cp • I.shearForce)
  · rw [if_pos h]
    ext i j
    simp only [upper, Matrix.smul_apply, Matrix.of_apply, smul_eq_mul, Pi.smul_apply]
    by_cases hij : i ≤ j
    · simp only [if_pos hij]
      field_simp
    · simp only [if_neg hij, mul_zero]
  · rw [if_neg h]
    have z : signOf cp • I.shearForce = 0 := norm3_eq_zero.mp (le_antisymm (not_lt.mp h) (norm3_nonneg _))
    have hsg : signOf cp ≠ 0 := by unfold signOf; split <;> norm_num
    have z' : I.shearForce = 0 := by
      rcases smul_eq_zero.mp z with h | h
      · exact absurd h hsg
      · exact h
    rw [z']
    ext i j
    simp [upper]

theorem mirror_smul (c : ℝ) (m : M3) : mirror (c • m) = c • mirror m := by
  ext i j
  simp only [mirror, Matrix.of_apply, Matrix.smul_apply]
  split <;> rfl

theorem mirror_add (m n : M3) : mirror (m + n) = mirror m + mirror n := by
  ext i j
  simp only [mirror, Matrix.of_apply, Matrix.add_apply]
  split <;> rfl

theorem mirror_of_symmetric (m u : M3) (hs : m.transpose = m) (hu : ∀ i j, i ≤ j → u i j = m i j) : mirror u = m := by
  ext i j
  simp only [mirror, Matrix.of_apply]
  by_cases h : i ≤ j
  · rw [if_pos h, hu i j h]
  · rw [if_neg h, hu j i (le_of_not_ge h)]
    exact congrFun (congrFun hs i) j

theorem fabric_ok (s : MScene) : ∃ f, fabricTensor s 0 none = .ok f := by
  obtain ⟨e, he, -⟩ := picked_eq s 0 (le_refl _) (by norm_num)
  rw [fabricTensor, he, Res.bind_ok]
  exact ⟨_, rfl⟩

theorem normalShear_ok (s : MScene) (hp : s.periodic = true) (hd : s.cell.hSize.det ≠ 0) (cp : Bool) (thr : Option ℝ) :
    ∃ (t : Option ℝ) (P : Parts), normalShear s cp thr = .ok P ∧
      (∀ f, fabricTensor s 0 none = .ok f → t = splitAt thr f.mean) ∧
      P.normal = some (mirror ((2 / s.cell.hSize.det) • ((contacts s).map (normalPart cp)).sum)) ∧
      P.shear = some (mirror ((2 / s.cell.hSize.det) • ((contacts s).map (shearPart cp)).sum)) ∧
      P.strong = some (mirror ((2 / s.cell.hSize.det) • (((contacts s).filter fun I => isStrong cp t I).map (normalPart cp)).sum)) ∧
      P.weak = some (mirror ((2 / s.cell.hSize.det) • (((contacts s).filter fun I => !isStrong cp t I).map (normalPart cp)).sum)) := by
  obtain ⟨f, hf⟩ := fabric_ok s
  refine ⟨splitAt thr f.mean,
    { normal := assembled s.cell.hSize.det (contacts s) (normalPart cp), shear := assembled s.cell.hSize.det (contacts s) (shearPart cp),
      strong := assembled s.cell.hSize.det ((contacts s).filter fun I => isStrong cp (splitAt thr f.mean) I) (normalPart cp),
      weak := assembled s.cell.hSize.det ((contacts s).filter fun I => !isStrong cp (splitAt thr f.mean) I) (normalPart cp) },
    ?_, ?_, ?_, ?_, ?_, ?_⟩
  · rw [normalShear, if_neg (by rw [hp]; decide)]; simp only; rw [hf, Res.bind_ok]; rfl
  · intro f' hf'; rw [hf] at hf'; cases hf'; rfl
  all_goals
    simp only [assembled, if_neg hd]
    rw [foldl_sum, zero_add]

/-- **C185 (part).** In a periodic cell, for sphere contacts without overlap and a stress that is symmetric (as in equilibrium),
normal and shear part add up to the stress of `getStress`, compression negative, with `compressionPositive=True`; and to its
opposite with `compressionPositive=False`. -/
theorem C185_sum_partial (s : MScene) (hp : s.periodic = true) (hd : s.cell.hSize.det ≠ 0)
    (hr : ∀ I ∈ s.intrs, I.real = true → Regular s I)
    (σ : M3) (hσ : getStress s 0 = .ok (some σ)) (hsym : σ.transpose = σ) (thr : Option ℝ) :
    (∃ P A B, normalShear s true thr = .ok P ∧ P.normal = some A ∧ P.shear = some B ∧ A + B = σ) ∧
    (∃ P A B, normalShear s false thr = .ok P ∧ P.normal = some A ∧ P.shear = some B ∧ A + B = -σ) := by
  have hS : AllSound s := fun I hI h => (hr I hI h).sound
  have hc : ∀ I ∈ contacts s, Regular s I := by
    intro I hI
    have hI := List.mem_filter.mp hI
    exact hr I hI.1 (by simpa using hI.2)
  rw [C183_volume s hp hd, getStress_eq hS hd] at hσ
  have hσ' : σ = (s.cell.hSize.det)⁻¹ • stressSum s := (Option.some.inj (Res.ok.inj hσ)).symm
  have key : ∀ cp : Bool, ∃ P A B, normalShear s cp thr = .ok P ∧ P.normal = some A ∧ P.shear = some B ∧
      A + B = (-signOf cp) • σ := by
    intro cp
    obtain ⟨t, P, h1, -, h2, h3, -, -⟩ := normalShear_ok s hp hd cp thr
    refine ⟨P, _, _, h1, h2, h3, ?_⟩
    rw [← mirror_add, ← smul_add, ← sum_map_add']
    apply mirror_of_symmetric
    · rw [Matrix.transpose_smul, hsym]
    · intro i j hij
      have hji : σ i j = σ j i := congrFun (congrFun hsym j) i
      rw [Matrix.smul_apply, Matrix.smul_apply, hji, hσ', Matrix.smul_apply, stressSum, sum_entry, sum_entry]
      simp only [smul_eq_mul]
      have e : ((contacts s).map fun I => (normalPart cp I + shearPart cp I) i j) =
          (contacts s).map fun I => (-(signOf cp) / 2) * vecMulVec (pull I) (place s I.id1 - place s I.id2 - jump s I) j i := by
        refine List.map_congr_left fun I hI => ?_
        obtain ⟨-, hu, ⟨N, hN⟩, hdist⟩ := hc I hI
        have hb : place s I.id1 - place s I.id2 - jump s I = -((I.refR1 + I.refR2) • I.normal) := by
          rw [← hdist]; abel
        have hdot : dot I.normalForce I.normal = N := by
          rw [hN]
          have : dot (N • I.normal) I.normal = N * sqNorm I.normal := by simp only [dot, sqNorm, Pi.smul_apply, smul_eq_mul]; ring
          rw [this, hu, mul_one]
        rw [hb, shearPart_eq, Matrix.add_apply, normalPart, normalN, hdot, vecMulVec_entry, pull, hN]
        simp only [upper, Matrix.smul_apply, Matrix.of_apply, if_pos hij, smul_eq_mul, contactR, Pi.add_apply, Pi.neg_apply,
          Pi.smul_apply]
        ring
      rw [e, List.sum_map_mul_left]
      field_simp
  constructor
  · obtain ⟨P, A, B, h1, h2, h3, h4⟩ := key true
    exact ⟨P, A, B, h1, h2, h3, by rw [h4]; simp [signOf]⟩
  · obtain ⟨P, A, B, h1, h2, h3, h4⟩ := key false
    exact ⟨P, A, B, h1, h2, h3, by rw [h4]; simp [signOf]⟩

/-- **C185 (part).** The strong and the weak part always add up to the normal part. -/
theorem C185_split_partial (s : MScene) (hp : s.periodic = true) (hd : s.cell.hSize.det ≠ 0) (cp : Bool) (thr : Option ℝ) :
    ∃ P A B C, normalShear s cp thr = .ok P ∧ P.normal = some A ∧ P.strong = some B ∧ P.weak = some C ∧ B + C = A := by
  obtain ⟨t, P, h1, -, h2, -, h3, h4⟩ := normalShear_ok s hp hd cp thr
  refine ⟨P, _, _, _, h1, h2, h3, h4, ?_⟩
  rw [← mirror_add, ← smul_add, sum_filter_map, sum_filter_map, ← sum_map_add']
  congr 4
  funext I
  by_cases h : isStrong cp t I = true
  · simp [h]
  · simp [h]

/-- **C185 (part).** With `compressionPositive=True` the strong part is that of the contacts more compressed than the threshold. -/
theorem C185_strong_partial (s : MScene) (hp : s.periodic = true) (hd : s.cell.hSize.det ≠ 0) (t : ℝ) :
    ∃ P, normalShear s true (some t) = .ok P ∧ P.strong =
      some ((2 / s.cell.hSize.det) • mirror (((strongOf t (contacts s)).map fun I => (contactR I * tension I) • upper I.normal I.normal).sum)) := by
  obtain ⟨t', P, h1, ht, -, -, h3, -⟩ := normalShear_ok s hp hd true (some t)
  refine ⟨P, h1, ?_⟩
  obtain ⟨f, hf⟩ := fabric_ok s
  have ht' : t' = some t := ht f hf
  subst ht'
  rw [h3, mirror_smul]
  have hN : ∀ I, normalN true I = tension I := by intro I; simp [normalN, signOf, tension, dot]
  have e : ((contacts s).filter fun I => isStrong true (some t) I) = strongOf t (contacts s) := by
    unfold strongOf
    refine List.filter_congr fun I _ => ?_
    rw [isStrong, if_pos rfl, hN, below_some]
  rw [e]
  congr 3
  congr 1
  refine List.map_congr_left fun I _ => ?_
  rw [normalPart, hN]

theorem normalShear_one (s : MScene) (hp : s.periodic = true) (hd : s.cell.hSize.det ≠ 0) (I : MIntr) (hI : contacts s = [I]) (cp : Bool) :
    ∃ P, normalShear s cp none = .ok P ∧ P.normal = some ((2 / s.cell.hSize.det) • mirror (normalPart cp I)) ∧
      P.shear = some ((2 / s.cell.hSize.det) • mirror (shearPart cp I)) := by
  obtain ⟨t, P, h1, -, h2, h3, -, -⟩ := normalShear_ok s hp hd cp none
  rw [hI] at h2 h3
  refine ⟨P, h1, ?_, ?_⟩
  · rw [h2, mirror_smul]; simp
  · rw [h3, mirror_smul]; simp

theorem cubic_det : unitCell.hSize.det = 64 := by
  simp [unitCell, det_fin_three]; norm_num

/-- one contact in a periodic cell -/
noncomputable def lone (I : MIntr) : MScene := { pair with periodic := true, intrs := [I] }

theorem lone_regular (I : MIntr) (h1 : I.id1 = 0) (h2 : I.id2 = 2) (h3 : I.refR1 = 1) (h4 : I.refR2 = 1) (h5 : I.normal = ![1, 0, 0])
    (h6 : I.normalForce = ![5, 0, 0]) (h7 : I.cellDist = 0) : Regular (lone I) I := by
  refine ⟨⟨⟨ball 0 1, by rw [h1]; rfl, by simp [ball]⟩, ⟨ball ![2, 0, 0] 1, by rw [h2]; rfl, by simp [ball]⟩⟩, ?_, ⟨5, ?_⟩, ?_⟩
  · rw [h5]; simp [sqNorm, dot]
  · rw [h5, h6]; simp
  · have j : jump (lone I) I = 0 := by
      unfold jump
      rw [h7]
      have : (fun a => (((0 : Fin 3 → ℤ) a : ℤ) : ℝ)) = 0 := by funext a; simp
      rw [this]; simp
    rw [j, h1, h2, h3, h4, h5]
    have p0 : place (lone I) 0 = 0 := rfl
    have p2 : place (lone I) 2 = ![2, 0, 0] := rfl
    rw [p0, p2]
    apply v3_ext <;> simp <;> norm_num

/-- two spheres pressed together: the hypotheses are met by the contact of `pair` in a periodic cell -/
example : Regular (lone pressed) pressed ∧ ∃ σ, getStress (lone pressed) 0 = .ok (some σ) ∧ σ.transpose = σ := by
  refine ⟨lone_regular _ rfl rfl rfl rfl rfl rfl rfl, ?_⟩
  have hd : (lone pressed).cell.hSize.det ≠ 0 := by show unitCell.hSize.det ≠ 0; rw [cubic_det]; norm_num
  have hs : AllSound (lone pressed) := by
    intro I hI _
    simp only [lone, List.mem_cons, List.not_mem_nil, or_false] at hI
    subst hI
    exact (lone_regular _ rfl rfl rfl rfl rfl rfl rfl).sound
  rw [C183_volume _ rfl hd, getStress_eq hs hd]
  refine ⟨_, rfl, ?_⟩
  rw [Matrix.transpose_smul]
  congr 1
  have hc : contacts (lone pressed) = [pressed] := rfl
  rw [stressSum, hc]
  simp only [List.map_cons, List.map_nil, List.sum_cons, List.sum_nil, add_zero]
  have hb : place (lone pressed) pressed.id1 - place (lone pressed) pressed.id2 - jump (lone pressed) pressed = ![-2, 0, 0] := by
    have := (lone_regular pressed rfl rfl rfl rfl rfl rfl rfl).distance
    have e : place (lone pressed) pressed.id1 - place (lone pressed) pressed.id2 - jump (lone pressed) pressed =
      -((pressed.refR1 + pressed.refR2) • pressed.normal) := by rw [← this]; abel
    rw [e]
    apply v3_ext <;> simp [pressed] <;> norm_num
  rw [hb]
  ext i j
  fin_cases i <;> fin_cases j <;> simp [vecMulVec_entry, pull, pressed]

/-- **C185 fails in its sign**: compression is positive without `compressionPositive` and negative with it. -/
theorem C185_violated_sign : ∃ s : MScene, s.periodic = true ∧ (∀ I ∈ s.intrs, I.real = true → Regular s I ∧ tension I < 0) ∧
    (∃ P A, normalShear s false none = .ok P ∧ P.normal = some A ∧ 0 < A 0 0) ∧
    (∃ P A, normalShear s true none = .ok P ∧ P.normal = some A ∧ A 0 0 < 0) := by
  have hd : (lone pressed).cell.hSize.det = 64 := cubic_det
  refine ⟨lone pressed, rfl, ?_, ?_, ?_⟩
  · intro I hI _
    simp only [lone, List.mem_cons, List.not_mem_nil, or_false] at hI
    subst hI
    exact ⟨lone_regular _ rfl rfl rfl rfl rfl rfl rfl, by simp [tension, pressed]⟩
  · obtain ⟨P, h1, h2, -⟩ := normalShear_one (lone pressed) rfl (by rw [hd]; norm_num) pressed rfl false
    refine ⟨P, _, h1, h2, ?_⟩
    rw [hd]
    simp [mirror, normalPart, upper, contactR, normalN, signOf, pressed, dot]
  · obtain ⟨P, h1, h2, -⟩ := normalShear_one (lone pressed) rfl (by rw [hd]; norm_num) pressed rfl true
    refine ⟨P, _, h1, h2, ?_⟩
    rw [hd]
    simp [mirror, normalPart, upper, contactR, normalN, signOf, pressed, dot]

/-- **C185 fails out of equilibrium**: `n⊗t` is not symmetric, but only its upper half is computed and copied to the lower half. For
a contact sheared along y the part has an entry below the diagonal that the sum of `R T n_i t_j` does not have. -/
theorem C185_violated_shear : ∃ s : MScene, ∃ I : MIntr, s.periodic = true ∧ contacts s = [I] ∧ Regular s I ∧
    ∃ P B, normalShear s false none = .ok P ∧ P.shear = some B ∧
      B 1 0 ≠ 2 / s.cell.hSize.det * (contactR I * (I.normal 1 * I.shearForce 0)) := by
  let I : MIntr := { pressed with shearForce := ![0, 3, 0] }
  have hd : (lone I).cell.hSize.det = 64 := cubic_det
  obtain ⟨P, h1, -, h2⟩ := normalShear_one (lone I) rfl (by rw [hd]; norm_num) I rfl false
  refine ⟨lone I, I, rfl, rfl, lone_regular _ rfl rfl rfl rfl rfl rfl rfl, P, _, h1, h2, ?_⟩
  rw [shearPart_eq, hd]
  norm_num [mirror, upper, contactR, signOf, I, pressed]

/-- **C185 fails to split by default**: without `compressionPositive` every compressed contact counts as strong, also the one that
is less compressed than the mean. -/
theorem C185_violated_split : ∃ s : MScene, s.periodic = true ∧ (∃ I ∈ contacts s, meanTension (contacts s) < tension I) ∧
    ∃ P A, normalShear s false none = .ok P ∧ P.normal = some A ∧ P.strong = some A ∧ P.weak = some 0 := by
  have t1 : tension pressed = -5 := by simp [tension, pressed]
  have t2 : tension pressedY = -9 := by simp [tension, pressed, pressedY]
  have hcs : contacts corner = [pressed, pressedY] := rfl
  have hm : meanTension [pressed, pressedY] = -7 := by rw [meanTension]; simp [t1, t2]; norm_num
  have hd : corner.cell.hSize.det ≠ 0 := by show unitCell.hSize.det ≠ 0; rw [cubic_det]; norm_num
  refine ⟨corner, rfl, ⟨pressed, by rw [hcs]; simp, by rw [hcs, hm, t1]; norm_num⟩, ?_⟩
  obtain ⟨t, P, h1, ht, h2, -, h3, h4⟩ := normalShear_ok corner rfl hd false none
  have hf := fabric_eq corner 0 (le_refl _) (by norm_num) none (by rw [corner_counted]; simp)
  have ht' := ht _ hf
  have ht2 : t = some (-7) := by rw [ht', splitAt]; simp only; rw [corner_counted, hm]
  have n1 : normalN false pressed = 5 := by simp [normalN, signOf, dot, pressed]
  have n2 : normalN false pressedY = 9 := by simp [normalN, signOf, dot, pressed, pressedY]
  have s1 : isStrong false t pressed = true := by
    rw [ht2, isStrong, if_neg (by decide), n1, above]; simp; norm_num
  have s2 : isStrong false t pressedY = true := by
    rw [ht2, isStrong, if_neg (by decide), n2, above]; simp; norm_num
  refine ⟨P, _, h1, h2, ?_, ?_⟩
  · rw [h3, hcs]; simp [List.filter_cons, s1, s2]
  · rw [h4, hcs]; simp [List.filter_cons, s1, s2, mirror]; rfl

end Verif.Meas
