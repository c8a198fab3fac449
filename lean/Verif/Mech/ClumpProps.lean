import Verif.Mech.ClumpLemmas
import Verif.Mech.NewtonProps
import Mathlib.Analysis.Matrix.Spectrum

/-!
# Properties of clump formation (C41, C83, C84)
-/
namespace Verif.Mech

/-! ## Specification -/

/-- Sum of the members' masses. -/
noncomputable def massSum (ms : List Member) : ℝ := (ms.map fun m => m.st.mass).sum

/-- Sum of mass times position. -/
noncomputable def momentSum (ms : List Member) : V3 := (ms.map fun m => m.st.mass • m.st.pos).sum

/-- `|d|² 1 - d dᵀ`: inertia tensor of a unit point mass at `d` about the origin. -/
def pointTensor (d : V3) : M3 := fun i j => (if i = j then dot d d else 0) - d i * d j

/-- Inertia tensor, in world axes, of a body about its own centre: principal moments along the body's
axes. -/
noncomputable def bodyTensor (s : State) : M3 :=
  s.ori.toMat * Matrix.diagonal s.inertia * s.ori.toMat.transpose

/-- Inertia tensor of a set of bodies about a point (parallel axes theorem). -/
noncomputable def tensorAbout (p : V3) (ms : List Member) : M3 :=
  (ms.map fun m => bodyTensor m.st + m.st.mass • pointTensor (m.st.pos - p)).sum

/-- Mass and moments of a sphere member are those of a solid ball of the material's density. -/
def SolidBall (m : Member) (r : ℝ) : Prop :=
  m.st.mass = m.density * (4 / 3 * Real.pi * r ^ 3) ∧ ∀ i, m.st.inertia i = 2 / 5 * m.st.mass * r ^ 2

/-- What the eigensolver must deliver for symmetric matrices: right-handed orthonormal eigenvectors as columns,
and the eigenvalues. -/
def GoodSolver (solver : M3 → M3 × V3) : Prop :=
  ∀ A : M3, A.transpose = A → IsRot (solver A).1 ∧
    (solver A).1 * Matrix.diagonal (solver A).2 * (solver A).1.transpose = A

/-- Such a solver exists (spectral theorem). -/
theorem exists_solver : ∃ s, GoodSolver s := by
  have key : ∀ A : M3, A.transpose = A → ∃ V : M3, ∃ l : V3, IsRot V ∧
      V * Matrix.diagonal l * V.transpose = A := by
    intro A hA
    have hh : A.IsHermitian := by
      rw [Matrix.IsHermitian, Matrix.conjTranspose]
      ext i j
      simp only [Matrix.map_apply, Matrix.transpose_apply, star_trivial]
      exact congrFun (congrFun hA i) j
    have hspec := hh.spectral_theorem
    set U := hh.eigenvectorUnitary with hU
    have hu : star (U : M3) * (U : M3) = 1 := Unitary.coe_star_mul_self U
    have hst : star (U : M3) = (U : M3).transpose := by
      ext i j
      simp [Matrix.star_apply]
    rw [hst] at hu
    have hspec' : (U : M3) * Matrix.diagonal hh.eigenvalues * (U : M3).transpose = A := by
      rw [← hst]
      conv_rhs => rw [hspec]
      simp [Unitary.conjStarAlgAut_apply]
    have hdet : (U : M3).det = 1 ∨ (U : M3).det = -1 := by
      have : (U : M3).det * (U : M3).det = 1 := by
        rw [← Matrix.det_transpose (U : M3)] 
        conv_lhs => rw [Matrix.det_transpose (U : M3)]
        calc (U : M3).det * (U : M3).det = (U : M3).transpose.det * (U : M3).det := by
              rw [Matrix.det_transpose]
          _ = ((U : M3).transpose * (U : M3)).det := (Matrix.det_mul _ _).symm
          _ = 1 := by rw [hu, Matrix.det_one]
      exact mul_self_eq_one_iff.mp this
    rcases hdet with hd | hd
    · exact ⟨U, hh.eigenvalues, ⟨hu, hd⟩, hspec'⟩
    · refine ⟨-(U : M3), hh.eigenvalues, ⟨?_, ?_⟩, ?_⟩
      · simp [hu]
      · rw [Matrix.det_neg, hd]; norm_num
      · simp [hspec']
  classical
  refine ⟨fun A => if h : A.transpose = A then ⟨(key A h).choose, (key A h).choose_spec.choose⟩
    else (1, 0), ?_⟩
  intro A hA
  simp only [hA, dif_pos]
  exact (key A hA).choose_spec.choose_spec

/-! ## C41 -/

theorem ofMat_normalize_unit (m : M3) : (Quat.ofMat m).normalize.sqNorm = 1 :=
  Quat.normalize_sqNorm (ofMat_ne_zero m)

theorem update_ge2 (disc : Nat) (solver : M3 → M3 × V3) (c : State) (asph : Bool) (ms : List Member)
    (h2 : 2 ≤ ms.length) :
    updateProperties disc solver c asph ms = assemble disc solver c ms := by
  match ms, h2 with
  | a :: b :: rest, _ => rw [updateProperties.eq_3] <;> simp

/-- **C41 (members stay).** Placing every member from the new state of the clump and its stored relative
position reproduces the position and orientation it had, for every discretisation and whatever matrix the
eigensolver returns. -/
theorem C41_placement (disc : Nat) (solver : M3 → M3 × V3) (c : State) (asph : Bool) (ms : List Member)
    (p : Props) (h : updateProperties disc solver c asph ms = .ok p) :
    ∃ rel : Member → Se3, p.members = ms.map (fun m => (m.id, rel m)) ∧
      ∀ m ∈ ms, ∀ s : State, (memberState p.st (rel m) s).pos = m.st.pos ∧
        (memberState p.st (rel m) s).ori = m.st.ori := by
  match ms with
  | [] => simp [updateProperties] at h
  | [m] =>
    simp only [updateProperties] at h
    injection h with h
    refine ⟨fun _ => ⟨0, Quat.one⟩, by rw [← h]; rfl, ?_⟩
    intro x hx s
    rw [List.mem_singleton] at hx
    subst hx
    rw [← h]
    simp only [memberState]
    refine ⟨?_, Quat.mul_one' _⟩
    apply v3_ext <;> simp [Quat.rot]
  | a :: b :: rest =>
    rw [update_ge2 _ _ _ _ _ (by simp), assemble] at h
    generalize (open Classical in if intersecting disc (a :: b :: rest) then discretise disc (a :: b :: rest)
      else (a :: b :: rest).foldl addMember ⟨0, 0, 0⟩) = acc at h
    simp only at h
    split_ifs at h with hM
    injection h with h
    refine ⟨fun m => ⟨p.st.ori.conj.rot (m.st.pos - p.st.pos), p.st.ori.conj.mul m.st.ori⟩,
      by rw [← h], ?_⟩
    intro m _ s
    have hu : p.st.ori.sqNorm = 1 := by rw [← h]; exact ofMat_normalize_unit _
    simp only [memberState]
    refine ⟨?_, ?_⟩
    · rw [Quat.rot_conj_rot hu]; abel
    · rw [← Quat.mul_assoc', Quat.mul_conj_self hu, Quat.one_mul']

/-- The accumulated sums when no spheres overlap. -/
theorem foldl_addMember (ms : List Member) (a : Acc)
    (hs : ∀ m ∈ ms, ∀ r, m.shape = .sphere r → SolidBall m r) :
    (ms.foldl addMember a).M = a.M + massSum ms ∧
    (ms.foldl addMember a).Sg = a.Sg + momentSum ms := by
  induction ms generalizing a with
  | nil => simp [massSum, momentSum]
  | cons m ms ih =>
    obtain ⟨h1, h2⟩ := ih (addMember a m) (fun x hx => hs x (List.mem_cons_of_mem _ hx))
    rw [List.foldl_cons, h1, h2]
    have hM : (addMember a m).M = a.M + m.st.mass ∧ (addMember a m).Sg = a.Sg + m.st.mass • m.st.pos := by
      unfold addMember
      cases hsh : m.shape with
      | sphere r =>
        have := (hs m List.mem_cons_self r hsh).1
        simp only [← this]; simp
      | other => simp
    rw [hM.1, hM.2]
    simp [massSum, momentSum, add_assoc]

/-- **C41 (mass and centre), partial.** If no spheres overlap (or discretisation is off) and sphere members
have the mass of a solid ball of their density, the mass of the clump is the sum of the members' masses and
its centre their mass-weighted mean.  Missing: overlapping spheres (mass by numerical integration) and spheres whose
mass was set otherwise, see `C41_violated_mass`. -/
theorem C41_mass_centre_partial (disc : Nat) (solver : M3 → M3 × V3) (c : State) (asph : Bool)
    (ms : List Member) (hne : ms ≠ []) (hint : ¬ intersecting disc ms) (hpos : 0 < massSum ms)
    (hs : ∀ m ∈ ms, ∀ r, m.shape = .sphere r → SolidBall m r) :
    ∃ p, updateProperties disc solver c asph ms = .ok p ∧ p.st.mass = massSum ms ∧
      p.st.mass • p.st.pos = momentSum ms := by
  match ms, hne with
  | [m], _ =>
    refine ⟨_, rfl, ?_, ?_⟩ <;> simp [massSum, momentSum]
  | a :: b :: rest, _ =>
    rw [update_ge2 _ _ _ _ _ (by simp), assemble]
    obtain ⟨h1, h2⟩ := foldl_addMember (a :: b :: rest) ⟨0, 0, 0⟩ hs
    simp only [zero_add] at h1 h2
    simp only [if_neg hint]
    rw [if_pos (by rw [h1]; exact hpos)]
    refine ⟨_, rfl, h1, ?_⟩
    rw [h1, h2]
    simp [smul_smul, mul_inv_cancel₀ hpos.ne']

/-- Two unit balls of mass 1 at ±u. -/
noncomputable def exBall (id : Nat) (pos : V3) (mass : ℝ) : Member :=
  { id := id, shape := .sphere 1, density := 1 / (4 / 3 * Real.pi),
    st := { exState 0 0 with pos := pos, mass := mass, inertia := fun _ => 2 / 5 * mass } }

theorem exBall_solid (id : Nat) (pos : V3) : SolidBall (exBall id pos 1) 1 := by
  have := Real.pi_pos.ne'
  refine ⟨?_, fun i => ?_⟩
  · simp only [exBall]; field_simp
  · simp [exBall]

/-- The hypotheses of `C41_mass_centre_partial` hold for two touching balls. -/
example : ¬ intersecting 0 [exBall 0 ![1, 0, 0] 1, exBall 1 ![-1, 0, 0] 1] ∧
    0 < massSum [exBall 0 ![1, 0, 0] 1, exBall 1 ![-1, 0, 0] 1] := by
  refine ⟨fun h => absurd h.1 (by simp), ?_⟩
  simp [massSum, exBall]

/-- **C41 fails for spheres whose mass is not density times volume**: two spheres of mass 1 and 5, the clump
gets mass 2. -/
theorem C41_violated_mass (solver : M3 → M3 × V3) : ∃ (ms : List Member) (p : Props),
    updateProperties 0 solver (exState 0 0) false ms = .ok p ∧ massSum ms = 6 ∧ p.st.mass = 2 := by
  have hpi := Real.pi_pos.ne'
  have h1 : ([exBall 0 ![1, 0, 0] 1, exBall 1 ![-1, 0, 0] 5].foldl addMember ⟨0, 0, 0⟩).M = 2 := by
    simp only [List.foldl_cons, List.foldl_nil, addMember, exBall]
    field_simp
    norm_num
  refine ⟨[exBall 0 ![1, 0, 0] 1, exBall 1 ![-1, 0, 0] 5], ?_⟩
  rw [update_ge2 _ _ _ _ _ (by simp), assemble]
  have hint : ¬ intersecting 0 [exBall 0 ![1, 0, 0] 1, exBall 1 ![-1, 0, 0] 5] := fun h =>
    absurd h.1 (by simp)
  simp only [if_neg hint]
  rw [if_pos (by rw [h1]; norm_num)]
  refine ⟨_, rfl, ?_, h1⟩
  simp [massSum, exBall]; norm_num

/-! ## C83: moments of inertia -/

theorem translate_eq (I : M3) (m : ℝ) (off : V3) :
    inertiaTensorTranslate I m off = I + m • pointTensor off := by
  apply m3_ext
  intro i j
  simp only [inertiaTensorTranslate, pointTensor, outer, Matrix.add_apply, Matrix.smul_apply,
    Matrix.sub_apply, smul_eq_mul, Matrix.one_apply]
  split_ifs <;> simp

theorem pointTensor_neg (d : V3) : pointTensor (-d) = pointTensor d := by
  apply m3_ext
  intro i j
  simp [pointTensor, dot]

/-- The bilinear form of which `pointTensor` is half the diagonal. -/
def cross2 (x c : V3) : M3 := fun i j => (if i = j then 2 * dot x c else 0) - (x i * c j + c i * x j)

theorem pointTensor_sub (x c : V3) : pointTensor (x - c) = pointTensor x + pointTensor c - cross2 x c := by
  apply m3_ext
  intro i j
  simp only [pointTensor, cross2, Matrix.add_apply, Matrix.sub_apply, Pi.sub_apply, dot]
  split_ifs <;> ring

theorem cross2_add (x y c : V3) : cross2 (x + y) c = cross2 x c + cross2 y c := by
  apply m3_ext
  intro i j
  simp only [cross2, Matrix.add_apply, Pi.add_apply, dot]
  split_ifs <;> ring

theorem cross2_smul (k : ℝ) (x c : V3) : cross2 (k • x) c = k • cross2 x c := by
  apply m3_ext
  intro i j
  simp only [cross2, Matrix.smul_apply, Pi.smul_apply, dot, smul_eq_mul]
  split_ifs <;> ring

theorem cross2_self (c : V3) : cross2 c c = (2 : ℝ) • pointTensor c := by
  apply m3_ext
  intro i j
  simp only [cross2, pointTensor, Matrix.smul_apply, smul_eq_mul]
  split_ifs <;> ring

/-- The tensor about `c` from the tensor about the origin. -/
theorem tensorAbout_eq (ms : List Member) (c : V3) :
    tensorAbout c ms = tensorAbout 0 ms + massSum ms • pointTensor c - cross2 (momentSum ms) c := by
  induction ms with
  | nil =>
    apply m3_ext
    intro i j
    simp [tensorAbout, massSum, momentSum, cross2, dot]
  | cons m ms ih =>
    have e : ∀ p, tensorAbout p (m :: ms) =
        (bodyTensor m.st + m.st.mass • pointTensor (m.st.pos - p)) + tensorAbout p ms := by
      intro p; simp [tensorAbout]
    have e1 : massSum (m :: ms) = m.st.mass + massSum ms := by simp [massSum]
    have e2 : momentSum (m :: ms) = m.st.mass • m.st.pos + momentSum ms := by simp [momentSum]
    rw [e, e, ih, e1, e2, cross2_add, cross2_smul, pointTensor_sub, sub_zero, add_smul, smul_sub, smul_add]
    abel

theorem bodyTensor_symm (s : State) : (bodyTensor s).transpose = bodyTensor s := by
  simp [bodyTensor, Matrix.transpose_mul, Matrix.mul_assoc]

theorem pointTensor_symm (d : V3) : (pointTensor d).transpose = pointTensor d := by
  apply m3_ext
  intro i j
  simp only [Matrix.transpose_apply, pointTensor]
  by_cases h : i = j
  · subst h; rfl
  · rw [if_neg h, if_neg (Ne.symm h), mul_comm]

theorem tensorAbout_symm (p : V3) (ms : List Member) : (tensorAbout p ms).transpose = tensorAbout p ms := by
  induction ms with
  | nil => simp [tensorAbout]
  | cons m ms ih =>
    have e : tensorAbout p (m :: ms) =
        (bodyTensor m.st + m.st.mass • pointTensor (m.st.pos - p)) + tensorAbout p ms := by simp [tensorAbout]
    rw [e, Matrix.transpose_add, Matrix.transpose_add, Matrix.transpose_smul, ih, bodyTensor_symm,
      pointTensor_symm]

theorem symmetrize_symm (A : M3) (h : A.transpose = A) : symmetrize A = A := by
  apply m3_ext
  intro i j
  simp only [symmetrize]
  split_ifs
  · exact congrFun (congrFun h i) j
  · rfl

/-- A member whose moments are the same about every axis, or which is not turned. -/
def Untilted (m : Member) : Prop := (∀ i, m.st.inertia i = m.st.inertia 0) ∨ m.st.ori = Quat.one

theorem toMat_orth {q : Quat} (h : q.sqNorm = 1) : q.toMat.transpose * q.toMat = 1 := by
  have key : ∀ v : V3, (q.toMat.transpose * q.toMat).mulVec v = v := by
    intro v
    have hd : ∀ u : V3, dot u (q.toMat.transpose.mulVec (q.toMat.mulVec v)) = dot u v := by
      intro u
      rw [dot_transpose, Quat.toMat_mulVec, Quat.toMat_mulVec, Quat.dot_rot h]
    have h0 := hd ![1, 0, 0]
    have h1 := hd ![0, 1, 0]
    have h2 := hd ![0, 0, 1]
    simp [dot] at h0 h1 h2
    exact v3_ext h0 h1 h2
  ext i j
  have := congrFun (key (Pi.single j 1)) i
  simp only [Matrix.mulVec_single_one, Matrix.col_apply] at this
  rw [this, Matrix.one_apply, Pi.single_apply]

theorem toMat_orth' {q : Quat} (h : q.sqNorm = 1) : q.toMat * q.toMat.transpose = 1 :=
  mul_eq_one_comm.mp (toMat_orth h)

theorem diag_const {v : V3} (h : ∀ i, v i = v 0) : Matrix.diagonal v = v 0 • (1 : M3) := by
  apply m3_ext
  intro i j
  by_cases e : i = j
  · subst e; simp [h i]
  · simp [e]

theorem bodyTensor_iso {s : State} (hq : s.ori.sqNorm = 1) (h : ∀ i, s.inertia i = s.inertia 0) :
    bodyTensor s = Matrix.diagonal s.inertia := by
  rw [bodyTensor, diag_const h]
  simp [toMat_orth' hq]

theorem rotate_untilted {m : Member} (hq : m.st.ori.sqNorm = 1) (h : Untilted m) :
    inertiaTensorRotate (Matrix.diagonal m.st.inertia) m.st.ori = bodyTensor m.st := by
  rcases h with h | h
  · rw [bodyTensor_iso hq h, inertiaTensorRotate, diag_const h]
    simp [toMat_orth hq]
  · have e : m.st.ori.toMat = 1 := by
      rw [h]
      apply m3_ext
      intro i j
      fin_cases i <;> fin_cases j <;> simp [Quat.toMat, Quat.one]
    rw [bodyTensor, inertiaTensorRotate, e]
    simp

theorem foldl_Ig (ms : List Member) (a : Acc)
    (hs : ∀ m ∈ ms, ∀ r, m.shape = .sphere r → SolidBall m r)
    (hq : ∀ m ∈ ms, m.st.ori.sqNorm = 1) (ho : ∀ m ∈ ms, m.shape = .other → Untilted m) :
    (ms.foldl addMember a).Ig = a.Ig + tensorAbout 0 ms := by
  induction ms generalizing a with
  | nil => simp [tensorAbout]
  | cons m ms ih =>
    have ih' := ih (addMember a m) (fun x hx => hs x (List.mem_cons_of_mem _ hx))
      (fun x hx => hq x (List.mem_cons_of_mem _ hx)) (fun x hx => ho x (List.mem_cons_of_mem _ hx))
    rw [List.foldl_cons, ih']
    have e : tensorAbout 0 (m :: ms) =
        (bodyTensor m.st + m.st.mass • pointTensor (m.st.pos - 0)) + tensorAbout 0 ms := by
      simp [tensorAbout]
    have hmq := hq m List.mem_cons_self
    have : (addMember a m).Ig = a.Ig + (bodyTensor m.st + m.st.mass • pointTensor m.st.pos) := by
      unfold addMember
      cases hsh : m.shape with
      | sphere r =>
        obtain ⟨h1, h2⟩ := hs m List.mem_cons_self r hsh
        simp only
        rw [← h1, translate_eq]
        have hn : (-1 : ℝ) • m.st.pos = -m.st.pos := by simp
        rw [hn, pointTensor_neg, bodyTensor_iso hmq (fun i => by rw [h2, h2])]
        congr 3
        funext i
        rw [h2 i]
      | other =>
        simp only
        rw [translate_eq, pointTensor_neg, rotate_untilted hmq (ho m List.mem_cons_self hsh)]
    rw [this, e, sub_zero]
    abel

/-- **C83, partial.** If no spheres overlap (or discretisation is off), sphere members are solid balls and other members
are not turned (or have equal moments), the principal moments and the orientation given to the clump are those of
the assembly: its inertia tensor is the sum of the members' tensors moved to the centre, provided the
eigensolver returns right-handed eigenvectors.  Missing: turned members that are not spheres
(`C83_violated_turned`), overlapping spheres (`C83_violated_density`), left-handed eigenvectors
(`C83_violated_left_handed`). -/
theorem C83_inertia_partial (disc : Nat) (solver : M3 → M3 × V3) (hsol : GoodSolver solver) (c : State)
    (asph : Bool) (ms : List Member) (h2 : 2 ≤ ms.length) (hint : ¬ intersecting disc ms)
    (hpos : 0 < massSum ms) (hs : ∀ m ∈ ms, ∀ r, m.shape = .sphere r → SolidBall m r)
    (hq : ∀ m ∈ ms, m.st.ori.sqNorm = 1) (ho : ∀ m ∈ ms, m.shape = .other → Untilted m) :
    ∃ p, updateProperties disc solver c asph ms = .ok p ∧ p.st.ori.sqNorm = 1 ∧
      bodyTensor p.st = tensorAbout p.st.pos ms ∧
      (p.aspherical = false ↔ ∀ i, p.st.inertia i = p.st.inertia 0) := by
  rw [update_ge2 _ _ _ _ _ h2, assemble]
  obtain ⟨hM, hS⟩ := foldl_addMember ms ⟨0, 0, 0⟩ hs
  have hI := foldl_Ig ms ⟨0, 0, 0⟩ hs hq ho
  simp only [zero_add] at hM hS hI
  simp only [if_neg hint]
  rw [if_pos (by rw [hM]; exact hpos)]
  set pos : V3 := (1 / massSum ms) • momentSum ms with hp
  have hmc : momentSum ms = massSum ms • pos := by
    rw [hp]; simp [smul_smul, mul_inv_cancel₀ hpos.ne']
  have hIc : symmetrize (inertiaTensorTranslate (tensorAbout 0 ms) (-massSum ms) pos) =
      tensorAbout pos ms := by
    have : inertiaTensorTranslate (tensorAbout 0 ms) (-massSum ms) pos = tensorAbout pos ms := by
      rw [translate_eq, tensorAbout_eq ms pos, hmc, cross2_smul, cross2_self]
      module
    rw [this, symmetrize_symm _ (tensorAbout_symm _ _)]
  rw [hM, hS, hI, ← hp, hIc]
  obtain ⟨hr, hv⟩ := hsol _ (tensorAbout_symm pos ms)
  obtain ⟨hu, hm⟩ := ofMat_rot hr
  refine ⟨_, rfl, ?_, ?_, ?_⟩
  · exact ofMat_normalize_unit _
  · simp only [bodyTensor, Quat.normalize_of_unit hu, hm, hv]
  · simp only [decide_eq_false_iff_not, not_or, not_not]
    constructor
    · rintro ⟨e1, e2⟩ i
      fin_cases i
      · rfl
      · exact e1.symm
      · exact e2.symm
    · intro h; exact ⟨(h 1).symm, (h 2).symm⟩

/-- The hypotheses of `C83_inertia_partial` can be met. -/
example : ∃ solver, GoodSolver solver ∧ ∃ ms : List Member, 2 ≤ ms.length ∧ ¬ intersecting 0 ms ∧ 0 < massSum ms ∧
    (∀ m ∈ ms, ∀ r, m.shape = .sphere r → SolidBall m r) ∧ (∀ m ∈ ms, m.st.ori.sqNorm = 1) := by
  obtain ⟨s, hs⟩ := exists_solver
  refine ⟨s, hs, [exBall 0 ![1, 0, 0] 1, exBall 1 ![-1, 0, 0] 1], by simp, fun h => absurd h.1 (by simp), ?_, ?_, ?_⟩
  · simp [massSum, exBall]
  · intro m hm r hr
    simp only [List.mem_cons, List.not_mem_nil, or_false] at hm
    rcases hm with rfl | rfl <;>
    · have : r = 1 := by simp only [exBall] at hr; injection hr with hr; exact hr.symm
      subst this
      exact exBall_solid _ _
  · intro m hm
    simp only [List.mem_cons, List.not_mem_nil, or_false] at hm
    rcases hm with rfl | rfl <;> simp [exBall, exState, Quat.one, Quat.sqNorm]

theorem conj_apply (A : M3) (d : V3) (i j : Fin 3) : (A * Matrix.diagonal d * A.transpose) i j =
    A i 0 * d 0 * A j 0 + A i 1 * d 1 * A j 1 + A i 2 * d 2 * A j 2 := by
  rw [Matrix.mul_apply, Fin.sum_univ_three]
  simp only [Matrix.mul_diagonal, Matrix.transpose_apply]

/-- A member that is not a sphere, turned about z, with moments 1, 2, 3 and mass 1. -/
noncomputable def exBox (id : Nat) (pos : V3) : Member :=
  { id := id, shape := .other, density := 1,
    st := { exState 0 0 with pos := pos, ori := ⟨3 / 5, 0, 0, 4 / 5⟩, inertia := ![1, 2, 3] } }

/-- **C83 fails for turned members that are not spheres**, whatever (good) eigensolver: their tensor is
turned by the inverse of their orientation. -/
theorem C83_violated_turned (solver : M3 → M3 × V3) (hsol : GoodSolver solver) :
    ∃ (ms : List Member) (p : Props), (∀ m ∈ ms, m.st.ori.sqNorm = 1) ∧
      updateProperties 0 solver (exState 0 0) false ms = .ok p ∧
      bodyTensor p.st ≠ tensorAbout p.st.pos ms := by
  refine ⟨[exBox 0 ![1, 0, 0], exBox 1 ![-1, 0, 0]], ?_⟩
  rw [update_ge2 _ _ _ _ _ (by simp), assemble]
  have hint : ¬ intersecting 0 [exBox 0 ![1, 0, 0], exBox 1 ![-1, 0, 0]] := fun h =>
    absurd h.1 (by simp)
  simp only [if_neg hint]
  set a := [exBox 0 ![1, 0, 0], exBox 1 ![-1, 0, 0]].foldl addMember ⟨0, 0, 0⟩ with ha
  have hM : a.M = 2 := by simp [ha, addMember, exBox, exState]; norm_num
  have hS : a.Sg = 0 := by
    apply v3_ext <;> simp [ha, addMember, exBox, exState]
  rw [if_pos (by rw [hM]; norm_num)]
  have hp : (1 / a.M) • a.Sg = 0 := by rw [hS, smul_zero]
  rw [hp]
  have hz : inertiaTensorTranslate a.Ig (-a.M) 0 = a.Ig := by
    rw [translate_eq]
    have : pointTensor 0 = 0 := by
      apply m3_ext; intro i j; simp [pointTensor, dot]
    rw [this, smul_zero, add_zero]
  rw [hz]
  have hsym : (symmetrize a.Ig).transpose = symmetrize a.Ig := by
    apply m3_ext
    intro i j
    simp only [Matrix.transpose_apply, symmetrize]
    rcases lt_trichotomy i j with h | h | h
    · rw [if_pos h, if_neg (not_lt.mpr h.le)]
    · subst h; rfl
    · rw [if_neg (not_lt.mpr h.le), if_pos h]
  obtain ⟨hr, hv⟩ := hsol _ hsym
  obtain ⟨hu, hm⟩ := ofMat_rot hr
  refine ⟨_, ?_, rfl, ?_⟩
  · intro m hm
    simp only [List.mem_cons, List.not_mem_nil, or_false] at hm
    rcases hm with rfl | rfl <;> norm_num [exBox, Quat.sqNorm]
  · simp only [bodyTensor, Quat.normalize_of_unit hu, hm, hv]
    intro h
    have h01 := congrFun (congrFun h 0) 1
    have hL : symmetrize a.Ig 0 1 = -336 / 625 := by
      simp [symmetrize, ha, addMember, exBox, exState, inertiaTensorTranslate, inertiaTensorRotate, outer,
        Matrix.mul_apply, Fin.sum_univ_three, Quat.toMat, Matrix.diagonal]
      norm_num
    have hR : tensorAbout 0 [exBox 0 ![1, 0, 0], exBox 1 ![-1, 0, 0]] 0 1 = 336 / 625 := by
      simp only [tensorAbout, bodyTensor, List.map_cons, List.map_nil, List.sum_cons, List.sum_nil,
        Matrix.add_apply, conj_apply]
      simp [pointTensor, exBox, exState, Quat.toMat]
      norm_num
    rw [hL, hR] at h01
    norm_num at h01

/-- An eigensolver whose eigenvectors may be left-handed, as Eigen's documentation allows. -/
def OrthogonalAt (solver : M3 → M3 × V3) (A : M3) : Prop :=
  (solver A).1.transpose * (solver A).1 = 1 ∧
    (solver A).1 * Matrix.diagonal (solver A).2 * (solver A).1.transpose = A

/-- Left-handed eigenvectors: minus the principal axes. -/
noncomputable def exV : M3 := !![-3 / 5, 4 / 5, 0; -4 / 5, -3 / 5, 0; 0, 0, -1]

/-- The principal moments. -/
noncomputable def exL : V3 := ![4 / 5, 14 / 5, 14 / 5]

/-- Two touching balls along the direction (3/5, 4/5, 0). -/
noncomputable def exPair : List Member := [exBall 0 ![3 / 5, 4 / 5, 0] 1, exBall 1 ![-3 / 5, -4 / 5, 0] 1]

theorem exPair_tensor : tensorAbout 0 exPair = exV * Matrix.diagonal exL * exV.transpose := by
  apply m3_ext
  intro i j
  simp only [exPair, tensorAbout, bodyTensor, List.map_cons, List.map_nil, List.sum_cons, List.sum_nil,
    Matrix.add_apply, conj_apply]
  fin_cases i <;> fin_cases j <;>
  · simp [pointTensor, exBall, exState, Quat.toMat, Quat.one, exV, exL, dot]
    try norm_num

theorem exV_orth : exV.transpose * exV = 1 := by
  apply m3_ext
  intro i j
  rw [Matrix.mul_apply, Fin.sum_univ_three]
  fin_cases i <;> fin_cases j <;>
  · simp [exV]
    try norm_num

theorem exV_quat : (Quat.ofMat exV).normalize = ⟨0, 1, 0, 0⟩ := by
  have hof : Quat.ofMat exV = ⟨0, 0.5 * Real.sqrt 2, 0, 0⟩ := by
    unfold Quat.ofMat
    have e00 : exV 0 0 = -3 / 5 := rfl
    have e11 : exV 1 1 = -3 / 5 := rfl
    have e22 : exV 2 2 = -1 := rfl
    have e21 : exV 2 1 = 0 := rfl
    have e12 : exV 1 2 = 0 := rfl
    have e10 : exV 1 0 = -4 / 5 := rfl
    have e01 : exV 0 1 = 4 / 5 := rfl
    have e20 : exV 2 0 = 0 := rfl
    have e02 : exV 0 2 = 0 := rfl
    simp only [e00, e11, e22, e21, e12, e10, e01, e20, e02]
    rw [if_neg (by norm_num), if_pos (by norm_num)]
    have : (-3 / 5 - -3 / 5 - -1 + 1 : ℝ) = 2 := by norm_num
    rw [this]
    ext <;> simp <;> norm_num
  rw [hof]
  have h2 : (0.5 * Real.sqrt 2) * (0.5 * Real.sqrt 2) = (1 / 2 : ℝ) := by
    have := Real.mul_self_sqrt (show (0 : ℝ) ≤ 2 by norm_num)
    linear_combination (0.25 : ℝ) * this
  have h3 : 0 < 0.5 * Real.sqrt 2 := by positivity
  have h4 : Real.sqrt (Quat.sqNorm ⟨0, 0.5 * Real.sqrt 2, 0, 0⟩) = 0.5 * Real.sqrt 2 := by
    have : Quat.sqNorm ⟨0, 0.5 * Real.sqrt 2, 0, 0⟩ = (0.5 * Real.sqrt 2) * (0.5 * Real.sqrt 2) := by
      simp [Quat.sqNorm]
    rw [this, Real.sqrt_mul_self h3.le]
  ext <;> simp only [Quat.normalize, h4] <;> simp [h3.ne']

theorem update_const (V : M3) (l : V3) (c : State) (ms : List Member) (h2 : 2 ≤ ms.length)
    (hs : ∀ m ∈ ms, ∀ r, m.shape = .sphere r → SolidBall m r) (hm : 0 < massSum ms)
    (hmom : momentSum ms = 0) :
    ∃ p, updateProperties 0 (fun _ => (V, l)) c false ms = .ok p ∧ p.st.pos = 0 ∧
      p.st.ori = (Quat.ofMat V).normalize ∧ p.st.inertia = l := by
  obtain ⟨hM, hS⟩ := foldl_addMember ms ⟨0, 0, 0⟩ hs
  simp only [zero_add] at hM hS
  have hint : ¬ intersecting 0 ms := fun h => absurd h.1 (by simp)
  rw [update_ge2 _ _ _ _ _ h2, assemble]
  simp only [if_neg hint]
  rw [if_pos (by rw [hM]; exact hm)]
  refine ⟨_, rfl, ?_, rfl, rfl⟩
  rw [hS, hmom, smul_zero]

theorem exPair_ball (m : Member) (hm : m ∈ exPair) : m.shape = .sphere 1 ∧ m.st.ori = Quat.one ∧
    SolidBall m 1 := by
  simp only [exPair, List.mem_cons, List.not_mem_nil, or_false] at hm
  rcases hm with h | h <;> (rw [h]; exact ⟨rfl, rfl, exBall_solid _ _⟩)

/-- **C83 fails for left-handed eigenvectors**: the conversion to a quaternion then yields axes that are not
principal. -/
theorem C83_violated_left_handed : ∃ (solver : M3 → M3 × V3) (ms : List Member) (p : Props),
    (∀ m ∈ ms, m.st.ori.sqNorm = 1) ∧ (∀ m ∈ ms, ∀ r, m.shape = .sphere r → SolidBall m r) ∧
    (∀ m ∈ ms, m.shape ≠ .other) ∧
    OrthogonalAt solver (tensorAbout p.st.pos ms) ∧
    updateProperties 0 solver (exState 0 0) false ms = .ok p ∧
    bodyTensor p.st ≠ tensorAbout p.st.pos ms := by
  have hs : ∀ m ∈ exPair, ∀ r, m.shape = .sphere r → SolidBall m r := by
    intro m hm r hr
    obtain ⟨h1, _, h3⟩ := exPair_ball m hm
    rw [h1] at hr
    injection hr with hr
    rw [← hr]
    exact h3
  have hmass : massSum exPair = 2 := by simp [exPair, massSum, exBall]; norm_num
  have hmom : momentSum exPair = 0 := by
    apply v3_ext <;> simp [exPair, momentSum, exBall] <;> norm_num
  obtain ⟨p, h1, h2, h3, h4⟩ := update_const exV exL (exState 0 0) exPair (by simp [exPair]) hs
    (by rw [hmass]; norm_num) hmom
  refine ⟨fun _ => (exV, exL), exPair, p, ?_, hs, ?_, ?_, h1, ?_⟩
  · intro m hm
    rw [(exPair_ball m hm).2.1]
    simp [Quat.one, Quat.sqNorm]
  · intro m hm h
    rw [(exPair_ball m hm).1] at h
    exact absurd h (by simp)
  · rw [h2]
    exact ⟨exV_orth, exPair_tensor.symm⟩
  · rw [h2, exPair_tensor, bodyTensor, h3, h4, exV_quat]
    intro h
    have h01 := congrFun (congrFun h 0) 1
    simp only [conj_apply] at h01
    simp [Quat.toMat, exV, exL] at h01
    norm_num at h01

/-- Two overlapping balls of given density. -/
noncomputable def exLens (ρ : ℝ) : List Member :=
  [{ exBall 0 0 1 with density := ρ }, { exBall 1 ![1, 0, 0] 1 with density := ρ }]

/-- **C83 fails for overlapping spheres**: with discretisation 1 the inertia does not depend on the density,
while the mass does (a factor density is missing in the cells' own inertia). -/
theorem C83_violated_density (solver : M3 → M3 × V3) (hsol : GoodSolver solver) (ρ : ℝ) (hρ : 0 < ρ) :
    ∃ p, updateProperties 1 solver (exState 0 0) false (exLens ρ) = .ok p ∧ p.st.mass = 8 * ρ ∧
      bodyTensor p.st = (16 / 3 : ℝ) • (1 : M3) := by
  have hint : intersecting 1 (exLens ρ) := by
    refine ⟨by norm_num, _, List.mem_cons_self, _, List.mem_cons_of_mem _ List.mem_cons_self, ?_⟩
    have hn : norm3 ((0 : V3) - ![1, 0, 0]) = 1 := by
      have : sqNorm ((0 : V3) - ![1, 0, 0]) = 1 := by simp [sqNorm, dot]
      rw [norm3, this, Real.sqrt_one]
    simp only [overlap, exBall, hn]
    norm_num
  have hlo : boxLo (exLens ρ) = ![-1, -1, -1] := by
    apply v3_ext <;> simp [boxLo, exLens, exBall, List.min?]
  have hhi : boxHi (exLens ρ) = ![2, 1, 1] := by
    apply v3_ext <;> simp [boxHi, exLens, exBall, List.max?] <;> norm_num
  have hc1 : centres (-1) 2 2 = [0] := by
    have : ⌈((2 : ℝ) - (-1) - 2 / 2) / 2⌉₊ = 1 := by norm_num
    simp only [centres, this, List.range_one, List.map_cons, List.map_nil]
    norm_num
  have hc2 : centres (-1) 1 2 = [0] := by
    have : ⌈((1 : ℝ) - (-1) - 2 / 2) / 2⌉₊ = 1 := by
      rw [show ((1 : ℝ) - (-1) - 2 / 2) / 2 = 1 / 2 by norm_num]
      rw [Nat.ceil_eq_iff (by norm_num)]; norm_num
    simp only [centres, this, List.range_one, List.map_cons, List.map_nil]
    norm_num
  have hd : discretise 1 (exLens ρ) =
      { M := 8 * ρ, Sg := 0, Ig := (16 / 3 : ℝ) • (1 : M3) } := by
    have hmin : min ((2 : ℝ) - -1) (min (1 - -1) (1 - -1)) = 2 := by norm_num
    have hcells : discretise 1 (exLens ρ) = addCell (exLens ρ) 2 ⟨0, 0, 0⟩ ![0, 0, 0] := by
      unfold discretise
      simp only [hlo, hhi]
      simp only [Matrix.cons_val_zero, Matrix.cons_val_one, Matrix.cons_val, hmin, Nat.cast_one, div_one, hc1,
        hc2, List.flatMap_cons, List.flatMap_nil, List.map_cons, List.map_nil, List.append_nil,
        List.foldl_cons, List.foldl_nil]
    rw [hcells]
    unfold addCell
    unfold exLens
    rw [List.find?_cons_of_pos (by simp [exBall, sqNorm, dot])]
    simp only [Acc.mk.injEq]
    refine ⟨by ring, ?_, ?_⟩
    · apply v3_ext <;> simp
    · apply m3_ext
      intro i j
      by_cases e : i = j
      · subst e
        fin_cases i <;> simp [outer, dot] <;> norm_num
      · simp [outer, dot, e]
        fin_cases i <;> simp
  rw [update_ge2 _ _ _ _ _ (by simp [exLens]), assemble]
  simp only [if_pos hint, hd]
  rw [if_pos (by positivity), smul_zero]
  have hz : inertiaTensorTranslate ((16 / 3 : ℝ) • (1 : M3)) (-(8 * ρ)) 0 = (16 / 3 : ℝ) • (1 : M3) := by
    rw [translate_eq]
    have : pointTensor 0 = 0 := by
      apply m3_ext; intro i j; simp [pointTensor, dot]
    rw [this, smul_zero, add_zero]
  have hsy : ((16 / 3 : ℝ) • (1 : M3)).transpose = (16 / 3 : ℝ) • (1 : M3) := by simp
  rw [hz, symmetrize_symm _ hsy]
  obtain ⟨hr, hv⟩ := hsol _ hsy
  obtain ⟨hu, hm⟩ := ofMat_rot hr
  refine ⟨_, rfl, rfl, ?_⟩
  simp only [bodyTensor, Quat.normalize_of_unit hu, hm, hv]

/-! ## C84: a newly formed clump is at rest -/

/-- **C84 (part).** After its properties are computed the velocity and angular velocity of a clump are zero. -/
theorem C84_rest_partial (disc : Nat) (solver : M3 → M3 × V3) (c : State) (asph : Bool) (ms : List Member)
    (p : Props) (h : updateProperties disc solver c asph ms = .ok p) :
    p.st.vel = 0 ∧ p.st.angVel = 0 ∧ p.st.angMom = c.angMom := by
  match ms with
  | [] => simp [updateProperties] at h
  | [m] =>
    simp only [updateProperties] at h
    injection h with h
    rw [← h]
    exact ⟨rfl, rfl, rfl⟩
  | a :: b :: rest =>
    rw [update_ge2 _ _ _ _ _ (by simp), assemble] at h
    simp only at h
    split_ifs at h with hM
    all_goals
      injection h with h
      subst h
      exact ⟨rfl, rfl, rfl⟩

/-- **C84 fails for a clump that was spinning**: its angular momentum is kept, so that the next step, without any force
or torque, gives it back an angular velocity. -/
theorem C84_violated : ∃ (solver : M3 → M3 × V3) (c : State) (ms : List Member) (p : Props),
    updateProperties 0 solver c false ms = .ok p ∧ p.aspherical = true ∧ p.st.angVel = 0 ∧
    (stepState exParams
      { periodic := false, homoDeform := 0, dVelGrad := 0, prevVelGrad := 0 }
      { moveRotUsed := false, move := 0, rot := 0, aspherical := p.aspherical, maskCompatible := true } 0 0
      p.st).angVel ≠ 0 := by
  refine ⟨fun _ => (1, ![1, 2, 2]), { exState 0 0 with angMom := ![1, 0, 0] },
    [exBall 0 ![1, 0, 0] 1, exBall 1 ![-1, 0, 0] 1], ?_⟩
  rw [update_ge2 _ _ _ _ _ (by simp), assemble]
  have hint : ¬ intersecting 0 [exBall 0 ![1, 0, 0] 1, exBall 1 ![-1, 0, 0] 1] := fun h =>
    absurd h.1 (by simp)
  simp only [if_neg hint]
  have hs : ∀ m ∈ [exBall 0 ![1, 0, 0] 1, exBall 1 ![-1, 0, 0] 1], ∀ r, m.shape = .sphere r → SolidBall m r := by
    intro m hm r hr
    simp only [List.mem_cons, List.not_mem_nil, or_false] at hm
    rcases hm with rfl | rfl <;>
    · have : r = 1 := by simp only [exBall] at hr; injection hr with hr; exact hr.symm
      subst this
      exact exBall_solid _ _
  obtain ⟨hM, hS⟩ := foldl_addMember _ ⟨0, 0, 0⟩ hs
  have hmass : massSum [exBall 0 ![1, 0, 0] 1, exBall 1 ![-1, 0, 0] 1] = 2 := by
    simp [massSum, exBall]; norm_num
  rw [if_pos (by rw [hM, hmass]; norm_num)]
  have hof : (Quat.ofMat 1).normalize = Quat.one := by
    have h1 : IsRot 1 := ⟨by simp, by simp⟩
    rw [Quat.normalize_of_unit (ofMat_rot h1).1]
    unfold Quat.ofMat
    have h4 : Real.sqrt 4 = 2 := by
      rw [show (4 : ℝ) = 2 * 2 by norm_num, Real.sqrt_mul_self (by norm_num)]
    ext <;> simp [Quat.one] <;> norm_num [h4]
  refine ⟨_, rfl, by simp, rfl, ?_⟩
  intro h
  have h0 := congrFun h 0
  simp only [hof] at h0
  simp [stepState, exState, dofAll, useAspherical, exParams, dofRot, asphTorque, linAccel, cundallDamp1st,
    computeAccel, leapfrogTranslate, leapfrogAsphericalRotate, imposedRot, moves, Quat.rot, Quat.conj,
    addScaled, dotQ, cross, Quat.vec, Quat.toMat, Quat.one, Matrix.mulVec, dotProduct, Fin.sum_univ_three,
    Matrix.vecHead] at h0

end Verif.Mech
