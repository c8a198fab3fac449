import Verif.Coh.Props

/-!
# Properties of cohesive contacts: C210-C215
-/
namespace Verif.Coh

open Verif.Mech

/-! ## C210: elastic energy -/

/-- Energy of the four springs of a contact. -/
noncomputable def springEnergy (p : Phys) : ℝ :=
  sqNorm p.Fn / (2 * p.kn) + sqNorm p.Fs / (2 * p.ks) + sqNorm p.Mb / (2 * p.kr) + sqNorm p.Mt / (2 * p.ktw)

theorem term_some (x : V3) {k : ℝ} (h : k ≠ 0) : term x k = some (sqNorm x / (2 * k)) := by
  unfold term
  rw [if_neg h]
  congr 1
  rw [mul_comm 2 k, ← div_div]
  ring

/-- **C210 (partial).** `elasticEnergy()` is the sum of the energies of all contacts if none of the stiffnesses is zero.  Missing:
contacts without rolling or twisting stiffness. -/
theorem C210_energy_partial (l : List Phys) (h : ∀ p ∈ l, p.kn ≠ 0 ∧ p.ks ≠ 0 ∧ p.kr ≠ 0 ∧ p.ktw ≠ 0) :
    totalElastEnergy l = some ((l.map springEnergy).sum) := by
  induction l with
  | nil => rfl
  | cons p l ih =>
    obtain ⟨h1, h2, h3, h4⟩ := h p List.mem_cons_self
    have := ih fun q hq => h q (List.mem_cons_of_mem _ hq)
    simp only [totalElastEnergy, this, term_some _ h1, term_some _ h2, term_some _ h3, term_some _ h4, plus,
      Option.bind_some, Option.map_some, List.map_cons, List.sum_cons, springEnergy]

/-- The hypothesis of `C210_energy_partial` is met by the bond of the examples. -/
example : ∀ p ∈ [exPhys exMat], p.kn ≠ 0 ∧ p.ks ≠ 0 ∧ p.kr ≠ 0 ∧ p.ktw ≠ 0 := by
  intro p hp
  rw [List.mem_singleton] at hp
  subst hp
  norm_num [exPhys, exMat, harm0]

/-- **C210 (violated).** For materials without rolling stiffness (`alphaKr=0`) every contact made, of whatever spheres, turns
`elasticEnergy()` into "not a number", even if no moments are computed. -/
theorem C210_violated (f : Ip2) (m1 m2 : Mat) (h : m1.alphaKr = 0) (G : Geom6) (s1 s2 : State) :
    totalElastEnergy [(ip2Go f m1 m2 none G s1 s2).1] = none ∧ (ip2Go f m1 m2 none G s1 s2).1.Mb = 0 := by
  have hk : (ip2Go f m1 m2 none G s1 s2).1.kr = 0 ∧ (ip2Go f m1 m2 none G s1 s2).1.Mb = 0 := by
    unfold ip2Go
    simp only
    split_ifs
    · simp [bond, harm0, h, Phys.new]
    · simp [harm0, h, Phys.new]
  refine ⟨?_, hk.2⟩
  have e : ∀ x : V3, term x (ip2Go f m1 m2 none G s1 s2).1.kr = none := by
    intro x; unfold term; rw [if_pos hk.1]
  simp only [totalElastEnergy, e, plus, Option.map_none]
  rw [show ∀ o : Option ℝ, (o.bind fun _ => (none : Option ℝ)) = none from fun o => by cases o <;> rfl]
  rfl

/-! ## C211: setCohesionNow -/

/-- Both materials are cohesive. -/
def CohesivePair (x : Mat × Mat × Option Phys) : Prop := x.1.isCohesive = true ∧ x.2.1.isCohesive = true

/-- The contact asks for cohesion itself. -/
def AsksItself (x : Mat × Mat × Option Phys) : Prop := ∃ p, x.2.2 = some p ∧ p.initCohesion = true

theorem tick_on {f : Ip2} {iter : ℤ} (h : f.setNow = true) (hd : f.defIter = -1 ∨ f.defIter = iter) :
    f.tick iter = { f with defIter := iter } := by
  unfold Ip2.tick
  rcases hd with hd | hd
  · simp only [h, hd, true_and, if_true]
    rw [if_neg (fun h3 => h3.2 rfl)]
  · by_cases e : iter = -1
    · simp [h, hd, e]
    · simp [h, hd, e]
      cases f; simp_all

theorem tick_off {f : Ip2} {iter : ℤ} (h : f.setNow = false) : f.tick iter = f := by
  unfold Ip2.tick; simp [h]

theorem tick_late {f : Ip2} {iter : ℤ} (h : f.setNow = true) (h1 : f.defIter ≠ -1) (h2 : f.defIter ≠ iter) :
    f.tick iter = { f with defIter := -1, setNow := false } := by
  unfold Ip2.tick; simp [h, h1, h2]

theorem call_on (l : List (Mat × Mat × Option Phys)) (f : Ip2) (iter : ℤ) (h : f.setNow = true)
    (hd : f.defIter = -1 ∨ f.defIter = iter) (hl : ∀ x ∈ l, CohesivePair x) :
    (callIter f iter l).2 = l.map (fun _ => true) ∧
    (callIter f iter l).1 = if l = [] then f else { f with defIter := iter } := by
  induction l generalizing f with
  | nil => exact ⟨rfl, by simp [callIter]⟩
  | cons x l ih =>
    obtain ⟨m1, m2, old⟩ := x
    obtain ⟨c1, c2⟩ := hl _ List.mem_cons_self
    simp only at c1 c2
    simp only [callIter, tick_on h hd]
    have := ih { f with defIter := iter } h (.inr rfl) fun x hx => hl x (List.mem_cons_of_mem _ hx)
    rw [this.1, this.2]
    refine ⟨?_, ?_⟩
    · cases old <;> simp [h, c1, c2]
    · split_ifs <;> simp_all

theorem call_off (l : List (Mat × Mat × Option Phys)) (f : Ip2) (iter : ℤ) (h : f.setNow = false)
    (hn : f.onNew = false) (hl : ∀ x ∈ l, ¬ AsksItself x) :
    (callIter f iter l).2 = l.map (fun _ => false) ∧ (callIter f iter l).1 = f := by
  induction l with
  | nil => exact ⟨rfl, rfl⟩
  | cons x l ih =>
    obtain ⟨m1, m2, old⟩ := x
    have ha := hl _ List.mem_cons_self
    have := ih fun x hx => hl x (List.mem_cons_of_mem _ hx)
    simp only [callIter, tick_off h, this.1, this.2, and_true]
    cases old with
    | none => simp [h, hn]
    | some p =>
      have hi : p.initCohesion = false := by
        by_contra e
        exact ha ⟨p, rfl, by simpa using e⟩
      simp [h, hi]

/-- **C211 (partial).** A request `setCohesionNow` given when no earlier one is pending, in an iteration with at least one
contact, makes all contacts of cohesive bodies in that iteration cohesive, and none of any later iteration.
Missing: iterations without contacts, and requests that follow each other. -/
theorem C211_now_partial (f : Ip2) (iter : ℤ) (l : List (Mat × Mat × Option Phys))
    (later : List (ℤ × List (Mat × Mat × Option Phys))) (hf : f.setNow = true) (hd : f.defIter = -1)
    (hn : f.onNew = false) (hi : 0 ≤ iter) (hl : l ≠ []) (hc : ∀ x ∈ l, CohesivePair x)
    (h1 : ∀ it ∈ later, iter < it.1) (h2 : ∀ it ∈ later, ∀ x ∈ it.2, ¬ AsksItself x) :
    (callIter f iter l).2 = l.map (fun _ => true) ∧
    ∀ (pre : List (ℤ × List (Mat × Mat × Option Phys))) (it : ℤ × List (Mat × Mat × Option Phys)) (post),
      later = pre ++ it :: post →
      (callIter (pre.foldl (fun g it => (callIter g it.1 it.2).1) (callIter f iter l).1) it.1 it.2).2 =
        it.2.map (fun _ => false) := by
  obtain ⟨a1, a2⟩ := call_on l f iter hf (.inl hd) hc
  rw [if_neg hl] at a2
  refine ⟨a1, ?_⟩
  intro pre it post hp
  have step : ∀ (g : Ip2) (jt : ℤ × List (Mat × Mat × Option Phys)), jt ∈ later → g.onNew = false →
      (g.setNow = false ∨ g.defIter = iter) →
      (callIter g jt.1 jt.2).2 = jt.2.map (fun _ => false) ∧ (callIter g jt.1 jt.2).1.onNew = false ∧
      ((callIter g jt.1 jt.2).1.setNow = false ∨ (callIter g jt.1 jt.2).1.defIter = iter) := by
    intro g jt hjt ho hg
    by_cases hs : g.setNow = false
    · obtain ⟨b1, b2⟩ := call_off jt.2 g jt.1 hs ho (h2 jt hjt)
      rw [b1, b2]
      exact ⟨rfl, ho, .inl hs⟩
    · have hs' : g.setNow = true := by simpa using hs
      have hg' : g.defIter = iter := hg.resolve_left hs
      cases hx : jt.2 with
      | nil => exact ⟨rfl, ho, .inr hg'⟩
      | cons x r =>
        have hne : g.defIter ≠ -1 := by omega
        have hne2 : g.defIter ≠ jt.1 := by have := h1 jt hjt; omega
        have ht := tick_late hs' hne hne2
        have e : callIter g jt.1 (x :: r) = callIter { g with defIter := -1, setNow := false } jt.1 (x :: r) := by
          obtain ⟨m1, m2, old⟩ := x
          simp only [callIter]
          rw [ht, tick_off (f := { g with defIter := -1, setNow := false }) rfl]
        rw [e]
        obtain ⟨b1, b2⟩ := call_off (x :: r) { g with defIter := -1, setNow := false } jt.1 rfl ho
          (by rw [← hx]; exact h2 jt hjt)
        rw [b1, b2]
        exact ⟨rfl, ho, .inl rfl⟩
  have fold : ∀ (pre : List (ℤ × List (Mat × Mat × Option Phys))) (g : Ip2), (∀ jt ∈ pre, jt ∈ later) →
      g.onNew = false → (g.setNow = false ∨ g.defIter = iter) →
      (pre.foldl (fun g it => (callIter g it.1 it.2).1) g).onNew = false ∧
      ((pre.foldl (fun g it => (callIter g it.1 it.2).1) g).setNow = false ∨
        (pre.foldl (fun g it => (callIter g it.1 it.2).1) g).defIter = iter) := by
    intro pre
    induction pre with
    | nil => intro g _ a b; exact ⟨a, b⟩
    | cons jt pre ih =>
      intro g hm a b
      obtain ⟨-, c1, c2⟩ := step g jt (hm _ List.mem_cons_self) a b
      exact ih _ (fun x hx => hm x (List.mem_cons_of_mem _ hx)) c1 c2
  obtain ⟨g1, g2⟩ := fold pre (callIter f iter l).1 (fun jt hj => by rw [hp]; exact List.mem_append_left _ hj)
    (by rw [a2]; exact hn) (by rw [a2]; exact .inr rfl)
  exact (step _ it (by rw [hp]; simp) g1 g2).1

/-- The hypotheses of `C211_now_partial` are met by two contacts, one of them there already, and a later one. -/
example : ∃ (f : Ip2) (l : List (Mat × Mat × Option Phys)) (later : List (ℤ × List (Mat × Mat × Option Phys))),
    f.setNow = true ∧ f.defIter = -1 ∧ f.onNew = false ∧ l.length = 2 ∧ (∀ x ∈ l, CohesivePair x) ∧ later.length = 1 ∧
    (∀ it ∈ later, (5 : ℤ) < it.1) ∧ ∀ it ∈ later, ∀ x ∈ it.2, ¬ AsksItself x := by
  refine ⟨{ exIp2 with defIter := -1 }, [(exMat, exMat, none), (exMat, exMat, some Phys.new)],
    [(6, [(exMat, exMat, some Phys.new)])], rfl, rfl, rfl, rfl, ?_, rfl, ?_, ?_⟩
  · simp [CohesivePair, exMat]
  · simp
  · intro it hit x hx
    rw [List.mem_singleton] at hit
    subst hit
    rw [List.mem_singleton] at hx
    subst hx
    rintro ⟨p, e, h⟩
    rw [← Option.some.inj e] at h
    exact absurd h (by simp [Phys.new])

/-- **C211 (violated, no contact).** A request given while there is no contact is not dropped: contacts of any later iteration
become cohesive. -/
theorem C211_violated_late (iter it : ℤ) : ∃ f : Ip2, f.setNow = true ∧ f.onNew = false ∧ f.defIter = -1 ∧
    (callIter (callIter f iter []).1 it [(exMat, exMat, none)]).2 = [true] := by
  refine ⟨{ exIp2 with defIter := -1 }, rfl, rfl, rfl, ?_⟩
  exact (call_on [(exMat, exMat, none)] { exIp2 with defIter := -1 } it rfl (.inl rfl) (by simp [CohesivePair, exMat])).1

/-- **C211 (violated, again).** A second request, given after the iteration of the first, is swallowed: no contact becomes
cohesive in the next iteration. -/
theorem C211_violated_again (iter : ℤ) (hi : 0 ≤ iter) : ∃ f g : Ip2, f.setNow = true ∧ f.defIter = -1 ∧
    g = { (callIter f iter [(exMat, exMat, none)]).1 with setNow := true } ∧
    (callIter g (iter + 1) [(exMat, exMat, none), (exMat, exMat, some Phys.new)]).2 = [false, false] := by
  refine ⟨{ exIp2 with defIter := -1 }, _, rfl, rfl, rfl, ?_⟩
  rw [(call_on [(exMat, exMat, none)] { exIp2 with defIter := -1 } iter rfl (.inl rfl) (by simp [CohesivePair, exMat])).2]
  simp only [callIter]
  rw [if_neg (by simp), tick_late (by rfl) (show iter ≠ -1 by omega) (show iter ≠ iter + 1 by omega)]
  rw [tick_off (by rfl)]
  simp [exIp2, Phys.new]

/-! ## C212: action and reaction -/

/-- **C212.** The loads of a pass, moments included, balance: forces and moments about every point, the second sphere being
taken at its periodic image. -/
theorem C212_balanced (P : Pair) (f : Ip2) (k k' : Contact) (s1 s2 : State) (c : GeomCtx) (L : Loads)
    (h : pass P f k s1 s2 c = .ok (k', L)) : Balanced s1.pos (s2.pos + c.shift2) L := by
  have law : ∀ (cfg : Cfg) (fresh : Bool) (G : Geom6) (p : Phys),
      Balanced s1.pos (s2.pos + c.shift2) (lawGo cfg fresh G p s1 s2 (s2.pos + c.shift2)).loads := by
    intro cfg fresh G p
    have hb : ∀ (cp F m : V3), Balanced s1.pos (s2.pos + c.shift2)
        ⟨F, cross (cp - s1.pos) F + -m, -F, -cross (cp - (s2.pos + c.shift2)) F + m⟩ := by
      intro cp F m
      refine ⟨by simp, fun o => ?_⟩
      apply v3_ext <;> simp [loadMoment] <;> ring
    cases e : normalPart G.g.pd p with
    | none => rw [lawGo_none e]; exact balanced_zero _ _
    | some x =>
      unfold lawGo
      rw [e]
      simp only
      split_ifs
      · exact hb _ _ _
      · have := hb G.g.contactPoint (-(shearPart G.g { p with unp := x.2 } x.1 (trial cfg G.g p fresh)).1.Fn -
          (shearPart G.g { p with unp := x.2 } x.1 (trial cfg G.g p fresh)).1.Fs) 0
        simp only [neg_zero, add_zero] at this
        exact this
  rcases pass_real h with ⟨h0, -⟩ | ⟨G, -, -, -, hL⟩
  · rw [h0]; exact balanced_zero _ _
  · rw [hL]; exact law _ _ _ _

/-! ## C213: moments -/

/-- Turning by the angle `th` about the unit vector `a`. -/
noncomputable def turn (th : ℝ) (a : V3) : Quat :=
  ⟨Real.cos (th / 2), Real.sin (th / 2) * a 0, Real.sin (th / 2) * a 1, Real.sin (th / 2) * a 2⟩

theorem turn_unit (th : ℝ) {a : V3} (h : sqNorm a = 1) : (turn th a).sqNorm = 1 := by
  have := Real.sin_sq_add_cos_sq (th / 2)
  unfold sqNorm dot at h
  simp only [Quat.sqNorm, turn]
  linear_combination Real.sin (th / 2) ^ 2 * h + this

theorem rotVec_turn {th : ℝ} {a : V3} (h : sqNorm a = 1) (h1 : |th| < Real.pi) : rotVec (turn th a) = th • a := by
  rw [abs_lt] at h1
  have hc : 0 < Real.cos (th / 2) := Real.cos_pos_of_mem_Ioo ⟨by linarith, by linarith⟩
  have hv : (turn th a).vec = Real.sin (th / 2) • a := by apply v3_ext <;> simp [turn, Quat.vec]
  have hw : (turn th a).w = Real.cos (th / 2) := rfl
  unfold rotVec
  rw [hw, hv, if_neg (not_lt.mpr hc.le), abs_of_pos hc, norm3_smul, unit_norm h, mul_one, smul_smul]
  congr 1
  have hacos : Real.arccos (Real.cos (th / 2)) = |th / 2| := by
    rw [← Real.cos_abs, Real.arccos_cos (abs_nonneg _)]
    rw [abs_le]
    constructor <;> linarith [Real.pi_pos]
  rw [hacos]
  rcases lt_trichotomy th 0 with h0 | h0 | h0
  · have hs : Real.sin (th / 2) < 0 := Real.sin_neg_of_neg_of_neg_pi_lt (by linarith) (by linarith [Real.pi_pos])
    rw [abs_of_neg hs, abs_of_neg (by linarith : th / 2 < 0)]
    have := hs.ne
    field_simp
  · subst h0; simp
  · have hs : 0 < Real.sin (th / 2) := Real.sin_pos_of_pos_of_lt_pi (by linarith) (by linarith [Real.pi_pos])
    rw [abs_of_pos hs, abs_of_pos (by linarith : 0 < th / 2)]
    field_simp

theorem delta_turn {G : Geom6} {s1 s2 : State} {q : Quat} (h1 : s1.ori = q.mul G.ori1) (h2 : s2.ori = G.ori2)
    (u1 : G.ori1.sqNorm = 1) (u2 : G.ori2.sqNorm = 1) (uq : q.sqNorm = 1) : delta G s1 s2 = q := by
  unfold delta
  rw [h1, h2, Quat.mul_assoc' q, Quat.mul_conj_self u1, Quat.mul_one', Quat.mul_conj_self u2, Quat.mul_one']
  exact Quat.normalize_of_unit uq

/-- **C213 (relative rotation, partial).** If since the bond was made the first body has turned by an angle below half a turn about
some axis relative to the second, twist and bending are that rotation's parts along the normal and across it.
Missing: larger rotations. -/
theorem C213_angle_partial (G : Geom6) (s1 s2 : State) (th : ℝ) (a : V3) (ha : sqNorm a = 1) (hth : |th| < Real.pi)
    (h1 : s1.ori = (turn th a).mul G.ori1) (h2 : s2.ori = G.ori2) (u1 : G.ori1.sqNorm = 1) (u2 : G.ori2.sqNorm = 1) :
    (updateRotations G s1 s2).twist = th * dot a G.g.normal ∧
    (updateRotations G s1 s2).bending = th • (a - dot a G.g.normal • G.g.normal) := by
  have e := rotVec_turn ha hth
  unfold updateRotations
  simp only [delta_turn h1 h2 u1 u2 (turn_unit th ha), e, dot_smul_left]
  refine ⟨trivial, ?_⟩
  rw [smul_sub, smul_smul]

/-- The hypotheses of `C213_angle_partial` are met by a quarter turn. -/
example : |Real.pi / 2| < Real.pi ∧ sqNorm (![1, 0, 0] : V3) = 1 ∧ (exG 1 0).ori1.sqNorm = 1 := by
  refine ⟨?_, by simp [sqNorm, dot], by simp [exG, Quat.sqNorm, Quat.one]⟩
  rw [abs_of_pos (by linarith [Real.pi_pos])]
  linarith [Real.pi_pos]

/-- **C213 (violated).** After a full relative turn about the normal the twist is zero: the moment is not the stiffness times the
relative rotation. -/
theorem C213_violated (G : Geom6) (s1 s2 : State) (h1 : s1.ori = (turn (2 * Real.pi) G.g.normal).mul G.ori1)
    (h2 : s2.ori = G.ori2) (u1 : G.ori1.sqNorm = 1) (u2 : G.ori2.sqNorm = 1) (hn : sqNorm G.g.normal = 1) :
    (updateRotations G s1 s2).twist = 0 := by
  have e : rotVec (turn (2 * Real.pi) G.g.normal) = 0 := by
    have : (turn (2 * Real.pi) G.g.normal).vec = 0 := by
      apply v3_ext <;> simp [turn, Quat.vec]
    rw [rotVec, this, smul_zero]
  unfold updateRotations
  simp only [delta_turn h1 h2 u1 u2 (turn_unit _ hn), e]
  simp [dot]

/-- The hypotheses of `C213_violated` can be met. -/
example : ∃ s1 s2 : State, s1.ori = (turn (2 * Real.pi) (exG 1 0).g.normal).mul (exG 1 0).ori1 ∧ s2.ori = (exG 1 0).ori2 ∧
    sqNorm (exG 1 0).g.normal = 1 :=
  ⟨{ sA with ori := _ }, { sA with ori := _ }, rfl, rfl, ex_unit 1 0⟩

theorem rotVec_rot {Q d : Quat} (h : Q.sqNorm = 1) : rotVec ((Q.mul d).mul Q.conj) = Q.rot (rotVec d) := by
  have hw : ((Q.mul d).mul Q.conj).w = d.w := by
    unfold Quat.sqNorm at h
    simp only [Quat.mul, Quat.conj]
    linear_combination d.w * h
  have hv : ((Q.mul d).mul Q.conj).vec = Q.rot d.vec := by
    have e := Quat.sandwich h d.vec
    have s : (Q.mul d).mul Q.conj =
        ⟨d.w * Q.sqNorm, ((Q.mul (Quat.pure d.vec)).mul Q.conj).x, ((Q.mul (Quat.pure d.vec)).mul Q.conj).y,
          ((Q.mul (Quat.pure d.vec)).mul Q.conj).z⟩ := by
      ext <;> simp only [Quat.mul, Quat.conj, Quat.pure, Quat.sqNorm, vec_zero', vec_one', vec_two'] <;> ring
    rw [s, e]
    apply v3_ext <;> rfl
  have hn : norm3 (Q.rot d.vec) = norm3 d.vec := by
    unfold norm3 sqNorm
    rw [Quat.dot_rot h]
  unfold rotVec
  rw [hw, hv, hn, Quat.rot_smul]

/-- **C213 (objectivity).** Turning both bodies together, and the contact normal with them, leaves the twist as it was and turns the
bending: the moments turn with the pair. -/
theorem C213_objective (Q : Quat) (hQ : Q.sqNorm = 1) (G G' : Geom6) (s1 s2 s1' s2' : State)
    (h1 : s1'.ori = Q.mul s1.ori) (h2 : s2'.ori = Q.mul s2.ori) (hn : G'.g.normal = Q.rot G.g.normal)
    (o1 : G'.ori1 = G.ori1) (o2 : G'.ori2 = G.ori2) :
    (updateRotations G' s1' s2').twist = (updateRotations G s1 s2).twist ∧
    (updateRotations G' s1' s2').bending = Q.rot (updateRotations G s1 s2).bending := by
  have hd : delta G' s1' s2' = (Q.mul (delta G s1 s2)).mul Q.conj := by
    unfold delta
    rw [h1, h2, o1, o2]
    have e : ((Q.mul s1.ori).mul G.ori1.conj).mul (G.ori2.mul (Q.mul s2.ori).conj) =
        (Q.mul ((s1.ori.mul G.ori1.conj).mul (G.ori2.mul s2.ori.conj))).mul Q.conj := by
      rw [Quat.conj_mul]
      simp only [Quat.mul_assoc']
    rw [e]
    generalize (s1.ori.mul G.ori1.conj).mul (G.ori2.mul s2.ori.conj) = d
    have hs : ((Q.mul d).mul Q.conj).sqNorm = d.sqNorm := by
      rw [Quat.sqNorm_mul, Quat.sqNorm_mul, Quat.sqNorm_conj, hQ, one_mul, mul_one]
    unfold Quat.normalize
    simp only [hs]
    ext <;> simp only [Quat.mul, Quat.conj] <;> ring
  unfold updateRotations
  simp only [hd, rotVec_rot hQ, hn, Quat.dot_rot hQ]
  refine ⟨trivial, ?_⟩
  rw [Quat.rot_sub, Quat.rot_smul]

/-- **C213 (rigid).** Bodies that have turned together since the bond was made exert no moments of twist and bending. -/
theorem C213_rigid (Q : Quat) (hQ : Q.sqNorm = 1) (G : Geom6) (s1 s2 : State) (h1 : s1.ori = Q.mul G.ori1)
    (h2 : s2.ori = Q.mul G.ori2) (u1 : G.ori1.sqNorm = 1) (u2 : G.ori2.sqNorm = 1) :
    (updateRotations G s1 s2).twist = 0 ∧ (updateRotations G s1 s2).bending = 0 := by
  have hd : delta G s1 s2 = Quat.one := by
    unfold delta
    rw [h1, h2, Quat.mul_assoc' Q, Quat.mul_conj_self u1, Quat.mul_one', Quat.conj_mul, ← Quat.mul_assoc' G.ori2,
      Quat.mul_conj_self u2, Quat.one_mul', Quat.mul_conj_self hQ]
    exact Quat.normalize_of_unit (by simp [Quat.sqNorm, Quat.one])
  unfold updateRotations
  simp only [hd, rotVec_one]
  refine ⟨by simp [dot], ?_⟩
  apply v3_ext <;> simp [dot]

/-- The hypotheses of `C213_objective` and `C213_rigid` are met by a quarter turn of both bodies. -/
example : (turn (Real.pi / 2) ![0, 0, 1]).sqNorm = 1 ∧ (exG 1 0).ori1.sqNorm = 1 ∧ (exG 1 0).ori2.sqNorm = 1 :=
  ⟨turn_unit _ (by simp [sqNorm, dot]), by simp [exG, Quat.sqNorm, Quat.one], by simp [exG, Quat.sqNorm, Quat.one]⟩

theorem limit_norm {eta k N : ℝ} {M : V3} (h : 0 ≤ eta) (hN : 0 ≤ N) : norm3 (limitMoment eta k N M).1 ≤ eta * N := by
  unfold limitMoment
  rw [if_pos h]
  simp only
  by_cases hm : norm3 M > eta * N
  · rw [if_pos hm]
    exact (scaled_norm (mul_nonneg h hN) hm).le
  · rw [if_neg hm]
    exact not_lt.mp hm

/-- What the law does with the moments. -/
theorem law_moments {cfg : Cfg} {fresh : Bool} {G : Geom6} {p : Phys} {s1 s2 : State} {x2 : V3}
    (h : (lawGo cfg fresh G p s1 s2 x2).keep = true) :
    let o := lawGo cfg fresh G p s1 s2 x2
    let L := atContactPoint G.g.contactPoint (-o.phys.Fn - o.phys.Fs) s1.pos x2
    if p.momentLaw && (!o.phys.broken || cfg.alwaysMoment) then
      o.phys.Mb = (limitMoment p.maxRoll p.kr (norm3 o.phys.Fn) (elasticMoments cfg G p s1 s2).2).1 ∧
      o.phys.Mt = (limitMoment p.maxTwist p.ktw (norm3 o.phys.Fn) (elasticMoments cfg G p s1 s2).1).1 ∧
      o.bendDissip = (limitMoment p.maxRoll p.kr (norm3 o.phys.Fn) (elasticMoments cfg G p s1 s2).2).2 ∧
      o.twistDissip = (limitMoment p.maxTwist p.ktw (norm3 o.phys.Fn) (elasticMoments cfg G p s1 s2).1).2 ∧
      o.loads = { L with t1 := L.t1 + -(o.phys.Mt + o.phys.Mb), t2 := L.t2 + (o.phys.Mt + o.phys.Mb) }
    else o.loads = L := by
  obtain ⟨F, unp, en⟩ := lawGo_keep h
  simp only
  unfold lawGo
  rw [en]
  simp only
  obtain ⟨-, -, -, -, -, -, -, e1, e2, e3, e4, e5, -, e6, e7⟩ :=
    shearPart_same G.g { p with unp := unp } F (trial cfg G.g p fresh)
  generalize shearPart G.g { p with unp := unp } F (trial cfg G.g p fresh) = q at *
  simp only at e1 e2 e3 e4 e5 e6 e7
  have em : elasticMoments cfg G q.1 s1 s2 = elasticMoments cfg G p s1 s2 := by
    unfold elasticMoments; rw [e2, e3, e6, e7]
  by_cases hm : (q.1.momentLaw && (!q.1.broken || cfg.alwaysMoment)) = true
  · simp only [hm, if_true, em, e2, e3, e4, e5]
    rw [if_pos (by rw [← e1]; exact hm)]
    exact ⟨trivial, trivial, trivial, trivial, trivial⟩
  · simp only [if_neg hm]
    rw [if_neg (by rw [← e1]; exact hm)]
    trivial

/-- **C213 (limits).** The rolling and twisting moments of a contact with rolling and twisting friction are at most the friction
coefficients times the present normal force. -/
theorem C213_limit (cfg : Cfg) (fresh : Bool) (G : Geom6) (p : Phys) (s1 s2 : State) (x2 : V3)
    (h : (lawGo cfg fresh G p s1 s2 x2).keep = true)
    (hm : p.momentLaw = true ∧ ((lawGo cfg fresh G p s1 s2 x2).phys.broken = false ∨ cfg.alwaysMoment = true))
    (hr : 0 ≤ p.maxRoll) (hw : 0 ≤ p.maxTwist) :
    norm3 (lawGo cfg fresh G p s1 s2 x2).phys.Mb ≤ p.maxRoll * norm3 (lawGo cfg fresh G p s1 s2 x2).phys.Fn ∧
    norm3 (lawGo cfg fresh G p s1 s2 x2).phys.Mt ≤ p.maxTwist * norm3 (lawGo cfg fresh G p s1 s2 x2).phys.Fn := by
  have := law_moments h
  simp only at this
  rw [if_pos (by rcases hm.2 with e | e <;> simp [hm.1, e])] at this
  rw [this.1, this.2.1]
  exact ⟨limit_norm hr (norm3_nonneg _), limit_norm hw (norm3_nonneg _)⟩

/-- The hypotheses of `C213_limit` are met by a bond that rolls. -/
example : ∃ p : Phys, p.momentLaw = true ∧ 0 ≤ p.maxRoll ∧ 0 ≤ p.maxTwist ∧
    (lawGo exCfg false { exG 1 0 with bending := ![0, 5, 0] } p sA (sB 1 0) 0).keep = true ∧
    (lawGo exCfg false { exG 1 0 with bending := ![0, 5, 0] } p sA (sB 1 0) 0).phys.broken = false := by
  refine ⟨{ exPhys exMat with aN := 1, aS := 1, momentLaw := true, maxRoll := 1, maxTwist := 1 }, rfl, zero_le_one,
    zero_le_one, ?_⟩
  have en : normalPart (exG 1 0).g.pd { exPhys exMat with aN := 1, aS := 1, momentLaw := true, maxRoll := 1, maxTwist := 1 } =
      some (1, 0) := by norm_num [normalPart, exG, exSc, exPhys, Phys.new, exMat]
  obtain ⟨hk, -, Mt, Mb, hp⟩ := lawGo_some (cfg := exCfg) (fresh := false) (s1 := sA) (s2 := sB 1 0) (x2 := 0)
    (G := { exG 1 0 with bending := ![0, 5, 0] }) en
  refine ⟨hk, ?_⟩
  rw [hp]
  have et : trial exCfg (exG 1 0).g { exPhys exMat with aN := 1, aS := 1, momentLaw := true, maxRoll := 1, maxTwist := 1 }
      false = ![0, 0, 0] := by
    have := ex_trial exCfg 1 0 { exPhys exMat with aN := 1, aS := 1, momentLaw := true, maxRoll := 1, maxTwist := 1 } false
      (by simp [exPhys, Phys.new])
    refine this.trans ?_
    simp
  show (shearPart _ _ _ (trial exCfg (exG 1 0).g _ false)).1.broken = false
  rw [et, shearPart_stick (by rw [norm_y, strength_eq]; norm_num [shearLimit, exPhys, Phys.new])]
  rfl

/-- **C213 (broken).** A contact without a bond carries no moments, unless they are asked for at all contacts: its loads are those of
one force at the contact point. -/
theorem C213_broken (cfg : Cfg) (fresh : Bool) (G : Geom6) (p : Phys) (s1 s2 : State) (x2 : V3)
    (h : (lawGo cfg fresh G p s1 s2 x2).keep = true) (hb : (lawGo cfg fresh G p s1 s2 x2).phys.broken = true)
    (ha : cfg.alwaysMoment = false) :
    let F := -(lawGo cfg fresh G p s1 s2 x2).phys.Fn - (lawGo cfg fresh G p s1 s2 x2).phys.Fs
    (lawGo cfg fresh G p s1 s2 x2).loads =
      ⟨F, cross (G.g.contactPoint - s1.pos) F, -F, -cross (G.g.contactPoint - x2) F⟩ := by
  have := law_moments h
  simp only at this
  rw [if_neg (by simp [hb, ha])] at this
  exact this

/-- The hypotheses of `C213_broken` are met by a contact that was never bonded. -/
example : (lawGo exCfg false (exG 1 0) { Phys.new with kn := 1 } sA (sB 1 0) 0).keep = true ∧
    (lawGo exCfg false (exG 1 0) { Phys.new with kn := 1 } sA (sB 1 0) 0).phys.broken = true := by
  have en : normalPart (exG 1 0).g.pd { Phys.new with kn := 1 } = some (1, 0) := by
    norm_num [normalPart, exG, exSc, Phys.new]
  obtain ⟨hk, -, Mt, Mb, hp⟩ := lawGo_some (cfg := exCfg) (fresh := false) (s1 := sA) (s2 := sB 1 0) (x2 := 0) en
  refine ⟨hk, ?_⟩
  rw [hp]
  by_cases h : norm3 (trial exCfg (exG 1 0).g { Phys.new with kn := 1 } false) >
      strength { ({ Phys.new with kn := 1 } : Phys) with unp := 0 } 1
  · exact congrArg Phys.broken (shearPart_slide h (by simp [Phys.new]))
  · rw [shearPart_stick h]; rfl

/-- **C213 (resistance).** In the incremental form a contact without stored moments resists the relative rotation of its bodies:
the power of the couple added to them is not positive. -/
theorem C213_resists (cfg : Cfg) (G : Geom6) (p : Phys) (s1 s2 : State) (hi : cfg.incremental = true) (hdt : 0 ≤ cfg.dt)
    (hkr : 0 ≤ p.kr) (hkt : 0 ≤ p.ktw) (h1 : p.Mt = 0) (h2 : p.Mb = 0) (hn : sqNorm G.g.normal = 1) :
    let m := (elasticMoments cfg G p s1 s2).1 + (elasticMoments cfg G p s1 s2).2
    dot (-m) s1.angVel + dot m s2.angVel ≤ 0 := by
  simp only [elasticMoments, hi, if_true, h1, h2]
  have hz : G.g.rotate 0 = 0 := by apply v3_ext <;> simp [ScGeom.rotate]
  rw [hz]
  set n := G.g.normal
  set w := s2.angVel - s1.angVel with hw
  have e : ∀ m : V3, dot (-m) s1.angVel + dot m s2.angVel = dot m w := by
    intro m; simp only [dot, hw, Pi.neg_apply, Pi.sub_apply]; ring
  rw [e]
  have e2 : dot ((0 - p.ktw • (cfg.dt • (dot n w • n))) + (0 - p.kr • (cfg.dt • (w - dot n w • n)))) w =
      -(cfg.dt * (p.ktw * dot n w ^ 2 + p.kr * sqNorm (w - dot n w • n))) := by
    unfold sqNorm at hn ⊢
    have hn' : n 0 * n 0 + n 1 * n 1 + n 2 * n 2 = 1 := hn
    simp only [dot, Pi.add_apply, Pi.sub_apply, Pi.zero_apply, Pi.smul_apply, smul_eq_mul]
    linear_combination cfg.dt * p.kr * (n 0 * w 0 + n 1 * w 1 + n 2 * w 2) ^ 2 * hn'
  rw [e2]
  have := mul_nonneg hdt (add_nonneg (mul_nonneg hkt (sq_nonneg (dot n w)))
    (mul_nonneg hkr (sqNorm_nonneg (w - dot n w • n))))
  linarith

/-- The hypotheses of `C213_resists` are met by the bond of the examples. -/
example : 0 ≤ (exPhys exMat).kr ∧ (exPhys exMat).Mt = 0 ∧ sqNorm (exG 1 0).g.normal = 1 :=
  ⟨by norm_num [exPhys, exMat, harm0], rfl, ex_unit 1 0⟩

/-! ## C214: parameters of contacts -/

/-- **C214 (symmetry).** The physics made for two materials does not depend on which body comes first. -/
theorem C214_symmetric (f : Ip2) (m1 m2 : Mat) (G G' : Geom6) (s1 s2 : State) (h1 : G'.g.r1 = G.g.r2)
    (h2 : G'.g.r2 = G.g.r1) :
    (ip2Go f m2 m1 none G' s2 s1).1 = (ip2Go f m1 m2 none G s1 s2).1 := by
  have hh : ∀ a b : ℝ, harm0 a b = harm0 b a := by
    intro a b
    unfold harm0
    by_cases h : a ≠ 0 ∧ b ≠ 0
    · rw [if_pos h, if_pos h.symm, add_comm, mul_right_comm]
    · rw [if_neg h, if_neg fun h' => h h'.symm]
  have hs : shearStiffness m2 m1 G.g.r2 G.g.r1 = shearStiffness m1 m2 G.g.r1 G.g.r2 := by
    unfold shearStiffness
    by_cases h : m1.poisson ≠ 0 ∧ m2.poisson ≠ 0
    · rw [if_pos h, if_pos h.symm]; congr 1 <;> ring
    · rw [if_neg h, if_neg fun h' => h h'.symm]
  have hkn : 2 * m2.young * G.g.r2 * m1.young * G.g.r1 / (m2.young * G.g.r2 + m1.young * G.g.r1) =
      2 * m1.young * G.g.r1 * m2.young * G.g.r2 / (m1.young * G.g.r1 + m2.young * G.g.r2) := by
    congr 1 <;> ring
  unfold ip2Go
  simp only [h1, h2, hs, hkn, hh m2.alphaKr, hh m2.alphaKtw, min_comm m2.frictionAngle, min_comm (m2.etaRoll * G.g.r2),
    min_comm (m2.etaTwist * G.g.r2), Bool.and_comm m2.momentLaw, mul_comm G.g.r2 G.g.r1]
  have hb : ((f.onNew || f.setNow) && m2.isCohesive && m1.isCohesive) =
      ((f.onNew || f.setNow) && m1.isCohesive && m2.isCohesive) := by
    rw [Bool.and_assoc, Bool.and_comm m2.isCohesive, ← Bool.and_assoc]
  rw [hb]
  split_ifs
  · simp only [bond, h1, h2, min_comm m2.normalCohesion, min_comm m2.shearCohesion, min_comm G.g.r1,
      Bool.or_comm m2.fragile]
  · rfl

/-- **C214 (as documented).** For two spheres of the same material, a new cohesive contact has the strengths of the material times the
square of the smaller radius, and rotational stiffnesses of `alpha` times shear stiffness times both radii. -/
theorem C214_documented (f : Ip2) (m : Mat) (G : Geom6) (s1 s2 : State) (hf : f.cohN = none ∧ f.cohS = none)
    (hc : (f.onNew || f.setNow) = true ∧ m.isCohesive = true) (ha : m.alphaKr ≠ 0 ∧ m.alphaKtw ≠ 0) :
    let p := (ip2Go f m m none G s1 s2).1
    p.aN = m.normalCohesion * min G.g.r1 G.g.r2 ^ 2 ∧ p.aS = m.shearCohesion * min G.g.r1 G.g.r2 ^ 2 ∧
    p.kr = p.ks * m.alphaKr * G.g.r1 * G.g.r2 ∧ p.ktw = p.ks * m.alphaKtw * G.g.r1 * G.g.r2 ∧
    p.broken = false ∧ p.fragile = m.fragile := by
  have hh : ∀ a : ℝ, a ≠ 0 → harm0 a a = a := by
    intro a h
    unfold harm0
    rw [if_pos ⟨h, h⟩]
    field_simp
    ring
  simp only [ip2Go, hc.1, hc.2, Bool.and_self, if_true, bond, hf.1, hf.2, Option.getD_none, min_self, hh _ ha.1,
    hh _ ha.2, Bool.or_self, min_comm G.g.r2]
  exact ⟨trivial, trivial, by ring, by ring, trivial, trivial⟩

/-- The hypotheses of `C214_documented` are met by the material of the examples. -/
example : (exIp2.onNew || exIp2.setNow) = true ∧ exMat.isCohesive = true ∧ exMat.alphaKr ≠ 0 ∧ exMat.alphaKtw ≠ 0 := by
  simp [exIp2, exMat]

/-- **C214 (as for frictional contacts).** Stiffnesses are those that `Ip2_FrictMat_FrictMat_FrictPhys` gives, for spheres of
materials with Poisson's ratio. -/
theorem C214_as_frict (f : Ip2) (m1 m2 : Mat) (G : Geom6) (s1 s2 : State) (hr : 0 < G.g.r1 ∧ 0 < G.g.r2)
    (hp : m1.poisson ≠ 0 ∧ m2.poisson ≠ 0) (ha : f.angle = none) :
    let p := (ip2Go f m1 m2 none G s1 s2).1
    let q := frictPhys none ⟨m1.young, m1.poisson, m1.frictionAngle⟩ ⟨m2.young, m2.poisson, m2.frictionAngle⟩ G.g
    p.kn = q.kn ∧ p.ks = q.ks ∧ p.tan = q.tan := by
  simp only [frictPhys, gt_iff_lt, hr.1, hr.2, if_true, ip2Go, shearStiffness, if_pos hp, ha, Option.getD_none]
  split_ifs <;> exact ⟨rfl, rfl, rfl⟩

/-- The hypotheses of `C214_as_frict` are met by the example. -/
example : 0 < (exG 1 0).g.r1 ∧ 0 < (exG 1 0).g.r2 ∧ exMat.poisson ≠ 0 ∧ exIp2.angle = none := by
  refine ⟨?_, ?_, ?_, rfl⟩ <;> norm_num [exG, exSc, exMat]

/-! ## C215: creep -/

/-- **C215 (partial).** Without relative motion and sliding, creep multiplies the shear force by `1 - ks dt / viscosity`; it does not
make it larger if the time step is at most twice the viscosity over the stiffness.  Missing: larger
time steps. -/
theorem C215_creep_partial (cfg : Cfg) (G : Geom6) (p : Phys) (s1 s2 : State) (x2 : V3) (hc : cfg.shearCreep = true)
    (h0 : G.g.shearInc = 0 ∧ G.g.ortho = 0 ∧ G.g.twist = 0) (hv : 0 < cfg.viscosity) (hk : 0 ≤ p.ks * cfg.dt)
    (hdt : p.ks * cfg.dt ≤ 2 * cfg.viscosity) (hn : p.aN ≥ -(p.kn * (G.g.pd - p.unp)))
    (hs : norm3 p.Fs ≤ max 0 (shearLimit p (p.kn * (G.g.pd - p.unp)))) :
    let q := (lawGo cfg false G p s1 s2 x2).phys
    q.Fs = (1 - p.ks * cfg.dt / cfg.viscosity) • p.Fs ∧ norm3 q.Fs ≤ norm3 p.Fs := by
  have en : normalPart G.g.pd p = some (p.kn * (G.g.pd - p.unp), p.unp) := by
    unfold normalPart
    simp only
    rw [if_neg (fun h => absurd h.2 (not_lt.mpr hn)), if_neg (not_lt.mpr hn)]
  obtain ⟨-, -, Mt, Mb, hp⟩ := lawGo_some (cfg := cfg) (fresh := false) (s1 := s1) (s2 := s2) (x2 := x2) en
  have et : trial cfg G.g p false = (1 - p.ks * cfg.dt / cfg.viscosity) • p.Fs := by
    unfold trial ScGeom.rotate
    simp only [hc, if_true, h0.1, h0.2.1, h0.2.2, Bool.false_eq_true, if_false]
    apply v3_ext <;> simp <;> ring
  have hle : norm3 ((1 - p.ks * cfg.dt / cfg.viscosity) • p.Fs) ≤ norm3 p.Fs := by
    rw [norm3_smul]
    have h1 : 0 ≤ p.ks * cfg.dt / cfg.viscosity := div_nonneg hk hv.le
    have h2 : p.ks * cfg.dt / cfg.viscosity ≤ 2 := by rw [div_le_iff₀ hv]; exact hdt
    have : |1 - p.ks * cfg.dt / cfg.viscosity| ≤ 1 := abs_le.mpr ⟨by linarith, by linarith⟩
    calc _ ≤ 1 * norm3 p.Fs := mul_le_mul_of_nonneg_right this (norm3_nonneg _)
      _ = _ := one_mul _
  simp only
  rw [hp, et, shearPart_stick]
  · exact ⟨rfl, hle⟩
  · rw [strength_eq]
    exact not_lt.mpr (hle.trans hs)

/-- The hypotheses of `C215_creep_partial` are met by a sheared bond. -/
example : norm3 (![0, 1, 0] : V3) ≤ max 0 (shearLimit { exPhys exMat with aS := 2 } 1) ∧ (exG 1 0).g.shearInc = 0 := by
  constructor
  · rw [norm_y]; norm_num [shearLimit, exPhys, Phys.new]
  · apply v3_ext <;> simp [exG, exSc]

/-- **C215 (violated).** With a larger time step the shear force of bodies at rest grows: here it turns around and doubles. -/
theorem C215_violated : ∃ (cfg : Cfg) (p : Phys), cfg.shearCreep = true ∧ 0 < cfg.viscosity ∧ p.Fs = ![0, 1, 0] ∧
    (lawGo cfg false (exG 1 0) p sA (sB 1 0) 0).phys.Fs = ![0, -2, 0] := by
  refine ⟨{ exCfg with shearCreep := true, viscosity := 1 / 3 },
    { exPhys exMat with aN := 1, aS := 10, Fs := ![0, 1, 0] }, rfl, by norm_num [exCfg], rfl, ?_⟩
  have en : normalPart (exG 1 0).g.pd { exPhys exMat with aN := 1, aS := 10, Fs := ![0, 1, 0] } = some (1, 0) := by
    norm_num [normalPart, exG, exSc, exPhys, Phys.new, exMat]
  obtain ⟨-, -, Mt, Mb, hp⟩ := lawGo_some (cfg := { exCfg with shearCreep := true, viscosity := 1 / 3 }) (fresh := false)
    (s1 := sA) (s2 := sB 1 0) (x2 := 0) en
  have et : trial { exCfg with shearCreep := true, viscosity := 1 / 3 } (exG 1 0).g
      { exPhys exMat with aN := 1, aS := 10, Fs := ![0, 1, 0] } false = ![0, -2, 0] := by
    have c0 : ∀ v : V3, cross v 0 = 0 := fun v => by apply v3_ext <;> simp
    have hr : ∀ v : V3, (exG 1 0).g.rotate v = v := by
      intro v
      show v - cross v 0 - cross (v - cross v 0) 0 = v
      rw [c0, c0, sub_zero, sub_zero]
    have hs : (exG 1 0).g.shearInc = 0 := by apply v3_ext <;> simp [exG, exSc]
    unfold trial
    simp only
    rw [hr, hs, smul_zero, sub_zero]
    show (![0, 1, 0] : V3) - (1 : ℝ) • (((1 : ℝ) / (1 / 3)) • (![0, 1, 0] : V3)) = _
    have : (1 : ℝ) / (1 / 3) = 3 := by norm_num
    rw [this]
    apply v3_ext <;> simp
    norm_num
  rw [hp, et, shearPart_stick (by rw [norm_y, strength_eq]; norm_num [shearLimit, exPhys, Phys.new])]

end Verif.Coh
