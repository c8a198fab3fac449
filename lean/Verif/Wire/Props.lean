import Verif.Wire.Model
import Mathlib.Tactic

/-! # Histories of wires (C274, C275) -/
namespace Verif.Wire

open Verif.Mech

/-! ## Specification -/

/-- `F` is on the curve through the points at `D`, which is beyond `p` and before `q`. -/
def OnCurve (pts : List Pt) (D F : ℝ) : Prop :=
  ∃ l p q r, pts = l ++ p :: q :: r ∧ q.1 < D ∧ D ≤ p.1 ∧ F = p.2 + (D - p.1) * ((q.2 - p.2) / (q.1 - p.1))

/-- Stiffness of all parts of a curve. -/
inductive SlopesOf : List Pt → List ℝ → Prop
  | one (p : Pt) : SlopesOf [p] []
  | cons (p q : Pt) (ps : List Pt) (ks : List ℝ) : SlopesOf (q :: ps) ks → SlopesOf (p :: q :: ps) ((q.2 - p.2) / (q.1 - p.1) :: ks)

/-- A new link, of a curve which begins at the origin and goes on in the direction of tension. -/
structure Fresh (p : Phys) (qs : List Pt) : Prop where
  linked : p.linked = true
  plast : p.plastD = 0
  pts : p.pts = 0 :: qs
  some : qs ≠ []
  sorted : List.Pairwise (fun a b : Pt => b.1 < a.1) (0 :: qs)
  ks : SlopesOf (0 :: qs) p.ks
  kn : 0 < p.kn

/-- The admissible displacement. -/
def lastD (qs : List Pt) : ℝ := (qs.getLastD 0).1

/-- Steps of the law without rupture. -/
inductive Hist (p : Phys) : List ℝ → Phys → Prop
  | nil : Hist p [] p
  | snoc {ds : List ℝ} {a b : Phys} {d f : ℝ} : Hist p ds a → a.law d = .ok (b, .force f) → Hist p (ds ++ [d]) b

/-- The largest extension so far, as a negative number. -/
def deepest (init : ℝ) : List ℝ → ℝ
  | [] => 0
  | d :: ds => min (d - init) (deepest init ds)

/-! ## Helpers -/

theorem deepest_snoc (i : ℝ) (ds : List ℝ) (d : ℝ) (h : deepest i [d] ≤ 0 := by simp [deepest]) : deepest i (ds ++ [d]) = min (deepest i ds) (d - i) := by
  induction ds with
  | nil => simp [deepest, min_comm]
  | cons x ds ih => simp only [List.cons_append, deepest, ih, min_assoc]

theorem deepest_le (i : ℝ) (ds : List ℝ) : deepest i ds ≤ 0 := by
  induction ds with
  | nil => exact le_refl _
  | cons x ds ih => exact (min_le_right _ _).trans ih

theorem OnCurve.tail {p : Pt} {pts : List Pt} {D F : ℝ} (h : OnCurve pts D F) : OnCurve (p :: pts) D F := by
  obtain ⟨l, a, b, r, e, h⟩ := h
  exact ⟨p :: l, a, b, r, by rw [e]; rfl, h⟩

theorem load_curve (D : ℝ) (qs : List Pt) : ∀ (p : Pt) (ks : List ℝ), SlopesOf (p :: qs) ks → D ≤ p.1 → (qs.getLastD p).1 < D →
    ∃ F, load D p qs ks = .ok (some F) ∧ OnCurve (p :: qs) D F := by
  induction qs with
  | nil => intro p ks _ h1 h2; exact absurd h1 (not_le.2 h2)
  | cons q qs ih =>
    intro p ks hk h1 h2
    rcases hk with _ | ⟨_, _, _, ks, hk⟩
    unfold load
    by_cases hq : q.1 < D
    · rw [if_pos hq]
      exact ⟨_, rfl, [], p, q, qs, rfl, hq, h1, rfl⟩
    · rw [if_neg hq]
      have h2' : (qs.getLastD q).1 < D := by rwa [List.getLastD_cons] at h2
      obtain ⟨F, e, h⟩ := ih q ks hk (not_lt.1 hq) h2'
      exact ⟨F, e, h.tail⟩

/-- On the first part the curve is a line through the origin. -/
theorem first_part {q : Pt} {qs : List Pt} (hs : List.Pairwise (fun a b : Pt => b.1 < a.1) (0 :: q :: qs)) {m F : ℝ} (h : OnCurve (0 :: q :: qs) m F) (hq : q.1 < m) : F = m * (q.2 / q.1) := by
  obtain ⟨l, a, b, r, e, h1, h2, h3⟩ := h
  rcases l with _ | ⟨x, l⟩
  · simp only [List.nil_append, List.cons.injEq] at e
    obtain ⟨rfl, rfl, rfl⟩ := e
    simpa using h3
  · exfalso
    simp only [List.cons_append, List.cons.injEq] at e
    obtain ⟨-, e⟩ := e
    have ha : a ∈ q :: qs := by rw [e]; simp
    rcases List.mem_cons.1 ha with rfl | ha
    · linarith
    · have := List.rel_of_pairwise_cons (List.pairwise_cons.1 hs).2 ha
      linarith

theorem load_again {q : Pt} {qs : List Pt} (hs : List.Pairwise (fun a b : Pt => b.1 < a.1) (0 :: q :: qs)) {ks : List ℝ} (hk : SlopesOf (0 :: q :: qs) ks) {m F D : ℝ} (hm : OnCurve (0 :: q :: qs) m F)
    (h1 : D ≤ m) (h2 : (qs.getLastD q).1 < D) : ∃ F', load D (m, F) (q :: qs) ks = .ok (some F') ∧ OnCurve (0 :: q :: qs) D F' := by
  rcases hk with _ | ⟨_, _, _, ks, hk⟩
  unfold load
  by_cases hq : q.1 < D
  · rw [if_pos hq]
    have e := first_part hs hm (hq.trans_le h1)
    have hm0 : m ≤ 0 := by
      obtain ⟨l, a, b, r, e, h1, h2, h3⟩ := hm
      have ha : a ∈ 0 :: q :: qs := by rw [e]; simp
      rcases List.mem_cons.1 ha with rfl | ha
      · exact h2
      · have : a.1 < (0 : Pt).1 := (List.pairwise_cons.1 hs).1 a ha
        exact h2.trans this.le
    refine ⟨_, rfl, [], 0, q, qs, rfl, hq, h1.trans hm0, ?_⟩
    rw [e]
    simp
    ring
  · rw [if_neg hq]
    obtain ⟨F', e, h⟩ := load_curve D qs q ks hk (not_lt.1 hq) h2
    exact ⟨F', e, h.tail⟩

/-- What holds in the course of a history. -/
structure Inv (p0 : Phys) (qs : List Pt) (m F : ℝ) (p : Phys) : Prop where
  linked : p.linked = true
  init : p.initD = p0.initD
  ks : p.ks = p0.ks
  kn : p.kn = p0.kn
  pts : p.pts = (m, F) :: qs
  curve : OnCurve (0 :: qs) m F
  plast : p.plastD = m - F / p0.kn

theorem Fresh.inv {p : Phys} {qs : List Pt} (h : Fresh p qs) : Inv p qs 0 0 p := by
  obtain ⟨q, r, rfl⟩ := List.exists_cons_of_ne_nil h.some
  refine ⟨h.linked, rfl, rfl, rfl, h.pts, ⟨[], 0, q, r, rfl, (List.pairwise_cons.1 h.sorted).1 q (by simp), le_refl _, by simp⟩, by simp [h.plast]⟩

theorem lastD_eq {qs : List Pt} (h : qs ≠ []) (p : Pt) : (qs.getLastD p).1 = lastD qs := by
  obtain ⟨q, r, rfl⟩ := List.exists_cons_of_ne_nil h
  simp only [lastD, List.getLastD_cons]

/-- A step: force and next state. -/
theorem Inv.law {p0 : Phys} {qs : List Pt} (h0 : Fresh p0 qs) {m F : ℝ} {p : Phys} (h : Inv p0 qs m F p) {d : ℝ} (hd : lastD qs < d - p0.initD) :
    (m < d - p0.initD → ∃ p', p.law d = .ok (p', .force (min (F + p0.kn * (d - p0.initD - m)) 0)) ∧ Inv p0 qs m F p' ∧ p'.limit = if min (F + p0.kn * (d - p0.initD - m)) 0 < 0 then |(d - p0.initD) / lastD qs| else 0) ∧
    (d - p0.initD ≤ m → ∃ p' F', p.law d = .ok (p', .force (min F' 0)) ∧ OnCurve (0 :: qs) (d - p0.initD) F' ∧ Inv p0 qs (d - p0.initD) F' p' ∧
      p'.limit = if min F' 0 < 0 then |(d - p0.initD) / lastD qs| else 0) := by
  have hl := lastD_eq h0.some (m, F)
  have hk : p0.kn ≠ 0 := h0.kn.ne'
  constructor
  · intro hm
    refine ⟨(p.keep (d - p0.initD) (lastD qs) (F + p0.kn * (d - p0.initD - m))).1, ?_, ⟨h.linked, h.init, h.ks, h.kn, h.pts, h.curve, h.plast⟩, rfl⟩
    have e : p0.kn * (d - p0.initD - (m - F / p0.kn)) = F + p0.kn * (d - p0.initD - m) := by field_simp; ring
    unfold Phys.law
    rw [if_neg (by simp [h.linked]), h.pts]
    dsimp only
    rw [h.init, hl, if_neg (not_lt.2 hd.le), if_pos hm, h.kn, h.plast, e]
    rfl
  · intro hm
    obtain ⟨q, r, rfl⟩ := List.exists_cons_of_ne_nil h0.some
    have hl' : (r.getLastD q).1 = lastD (q :: r) := by simp only [lastD, List.getLastD_cons]
    obtain ⟨F', e, hc⟩ := load_again h0.sorted h0.ks h.curve hm (by rw [hl']; exact hd)
    have e' : p.law d = .ok (Phys.keep { p with pts := (d - p0.initD, F') :: q :: r, plastD := d - p0.initD - F' / p.kn } (d - p0.initD) (lastD (q :: r)) F') := ?_
    · exact ⟨_, F', e', hc, ⟨h.linked, h.init, h.ks, h.kn, rfl, hc, by simp only [Phys.keep, h.kn]⟩, rfl⟩
    have hkp : p.kn ≠ 0 := by rw [h.kn]; exact hk
    have hg : p.law d = p.loading (d - p0.initD) (lastD (q :: r)) (m, F) (q :: r) := by
      unfold Phys.law
      rw [if_neg (by simp [h.linked]), h.pts]
      dsimp only
      rw [h.init, hl, if_neg (not_lt.2 hd.le), if_neg (not_lt.2 hm)]
    have hq : quot F' p.kn = .ok (F' / p.kn) := if_neg hkp
    rw [hg]
    unfold Phys.loading
    rw [h.ks, e, Res.bind_ok]
    dsimp only
    rw [hq, Res.bind_ok]

theorem Hist.inv {p0 : Phys} {qs : List Pt} (h0 : Fresh p0 qs) {ds : List ℝ} {p : Phys} (h : Hist p0 ds p) : (∀ d ∈ ds, lastD qs < d - p0.initD) → ∃ F, Inv p0 qs (deepest p0.initD ds) F p := by
  induction h with
  | nil => intro _; exact ⟨0, h0.inv⟩
  | @snoc ds a b d f h hb ih =>
    intro hd
    obtain ⟨F, hi⟩ := ih fun x hx => hd x (by simp [hx])
    obtain ⟨l1, l2⟩ := hi.law h0 (hd d (by simp))
    rw [deepest_snoc _ _ _ (by simp [deepest])]
    rcases lt_or_ge (deepest p0.initD ds) (d - p0.initD) with hm | hm
    · obtain ⟨p', e, hp, -⟩ := l1 hm
      rw [hb] at e
      simp only [Res.ok.injEq, Prod.mk.injEq] at e
      rw [e.1, min_eq_left hm.le]
      exact ⟨F, hp⟩
    · obtain ⟨p', F', e, -, hp, -⟩ := l2 hm
      rw [hb] at e
      simp only [Res.ok.injEq, Prod.mk.injEq] at e
      rw [e.1, min_eq_right hm]
      exact ⟨F', hp⟩

theorem loading_out {p p' : Phys} {D last : ℝ} {p0 : Pt} {ps : List Pt} {o : Out} (h : p.loading D last p0 ps = .ok (p', o)) : ∃ f, o = .force f ∧ f ≤ 0 := by
  unfold Phys.loading at h
  rcases hl : load D p0 ps p.ks with x | _ | _
  · rw [hl, Res.bind_ok] at h
    rcases x with _ | f
    · simp only [Phys.keep, Res.ok.injEq, Prod.mk.injEq] at h
      exact ⟨_, h.2.symm, min_le_right _ _⟩
    · dsimp only at h
      rcases hq : quot f p.kn with y | _ | _
      · rw [hq, Res.bind_ok] at h
        simp only [Phys.keep, Res.ok.injEq, Prod.mk.injEq] at h
        exact ⟨_, h.2.symm, min_le_right _ _⟩
      · rw [hq] at h; simp at h
      · rw [hq] at h; simp at h
  · rw [hl] at h; simp at h
  · rw [hl] at h; simp at h

/-! ## C274 -/

/-- **C274, part**: after any history of displacements short of the admissible one, a displacement beyond all of before gives the force of the curve, and another the force at the largest extension, changed by
the elastic stiffness; compression is cut off.  Missing: the admissible displacement itself. -/
theorem C274_history_partial {p0 : Phys} {qs : List Pt} (h0 : Fresh p0 qs) {ds : List ℝ} {p : Phys} (h : Hist p0 ds p) (hds : ∀ d ∈ ds, lastD qs < d - p0.initD) {d : ℝ} (hd : lastD qs < d - p0.initD) :
    ∃ Fm, OnCurve (0 :: qs) (deepest p0.initD ds) Fm ∧ ∃ p' f, p.law d = .ok (p', .force f) ∧
      (d - p0.initD ≤ deepest p0.initD ds → ∃ F, OnCurve (0 :: qs) (d - p0.initD) F ∧ f = min F 0) ∧
      (deepest p0.initD ds < d - p0.initD → f = min (Fm + p0.kn * (d - p0.initD - deepest p0.initD ds)) 0) := by
  obtain ⟨F, hi⟩ := h.inv h0 hds
  obtain ⟨l1, l2⟩ := hi.law h0 hd
  refine ⟨F, hi.curve, ?_⟩
  rcases lt_or_ge (deepest p0.initD ds) (d - p0.initD) with hm | hm
  · obtain ⟨p', e, -⟩ := l1 hm
    exact ⟨p', _, e, fun h => absurd h (not_le.2 hm), fun _ => rfl⟩
  · obtain ⟨p', F', e, hc, -⟩ := l2 hm
    exact ⟨p', _, e, fun _ => ⟨F', hc, rfl⟩, fun h => absurd h (not_lt.2 hm)⟩

/-- **C274**: the link breaks exactly beyond the admissible displacement, for all histories. -/
theorem C274_rupture {p0 : Phys} {qs : List Pt} (h0 : Fresh p0 qs) {ds : List ℝ} {p : Phys} (h : Hist p0 ds p) (hds : ∀ d ∈ ds, lastD qs < d - p0.initD) (d : ℝ) :
    (∃ p', p.law d = .ok (p', .breaks) ∧ p'.linked = false) ↔ d - p0.initD < lastD qs := by
  obtain ⟨F, hi⟩ := h.inv h0 hds
  have hl := lastD_eq h0.some (deepest p0.initD ds, F)
  constructor
  · rintro ⟨p', e, -⟩
    by_contra hc
    unfold Phys.law at e
    rw [if_neg (by simp [hi.linked]), hi.pts] at e
    dsimp only at e
    rw [hi.init, hl, if_neg hc] at e
    split_ifs at e
    · simp [Phys.keep] at e
    · obtain ⟨f, hf, -⟩ := loading_out e
      simp at hf
  · intro hc
    refine ⟨{ p with linked := false }, ?_, rfl⟩
    unfold Phys.law
    rw [if_neg (by simp [hi.linked]), hi.pts]
    dsimp only
    rw [hi.init, hl, if_pos hc]

/-- A link with two parts: one unit of force at one of extension, two at three. -/
noncomputable def wire : Phys where
  initD := 0
  linked := true
  twist := false
  pts := [0, (-1, -1), (-3, -2)]
  ks := [1, 1 / 2]
  kn := 1
  plastD := 0
  limit := 0
  dL := 0

theorem wire_fresh : Fresh wire [(-1, -1), (-3, -2)] := by
  refine ⟨rfl, rfl, rfl, by simp, ?_, ?_, by norm_num [wire]⟩
  · norm_num
  · have h := SlopesOf.cons 0 (-1, -1) [(-3, -2)] _ (.cons (-1, -1) (-3, -2) [] _ (.one _))
    norm_num at h
    exact h

/-- A history: extension by two, then half a unit back. -/
example : ∃ p, Hist wire [-2, -3 / 2] p ∧ (∀ d ∈ [(-2 : ℝ), -3 / 2], lastD [(-1, -1), (-3, -2)] < d - wire.initD) ∧ deepest wire.initD [-2, -3 / 2] = -2 := by
  have hl : lastD [(-1, -1), (-3, -2)] = -3 := by simp [lastD]
  have hi : wire.initD = 0 := rfl
  obtain ⟨_, l2⟩ := (wire_fresh.inv).law wire_fresh (d := -2) (by rw [hl, hi]; norm_num)
  obtain ⟨p1, F1, e1, -, i1, -⟩ := l2 (by rw [hi]; norm_num)
  obtain ⟨l1, _⟩ := i1.law wire_fresh (d := -3 / 2) (by rw [hl, hi]; norm_num)
  obtain ⟨p2, e2, -⟩ := l1 (by rw [hi]; norm_num)
  refine ⟨p2, .snoc (.snoc .nil e1) e2, ?_, ?_⟩
  · intro d hd
    simp at hd
    rw [hl, hi]
    rcases hd with rfl | rfl <;> norm_num
  · simp [deepest, hi]; norm_num

/-- **C274 violated**: at the admissible displacement itself the link is not broken, and there is no force, although the curve has its largest one there. -/
theorem C274_violated : ∃ p', wire.law (-3) = .ok (p', .force 0) ∧ p'.linked = true := by
  refine ⟨{ wire with limit := 0 }, ?_, rfl⟩
  simp [Phys.law, wire, Phys.loading, load, Phys.keep]

/-! ## C275 -/

/-- **C275**: no force pushes. -/
theorem C275_tension {p p' : Phys} {d f : ℝ} (h : p.law d = .ok (p', .force f)) : f ≤ 0 := by
  unfold Phys.law at h
  split_ifs at h
  · simp at h
  · rcases hp : p.pts with _ | ⟨p0, ps⟩
    · rw [hp] at h; simp at h
    · rw [hp] at h
      dsimp only at h
      split_ifs at h
      · simp at h
      · simp [Phys.keep] at h
        rw [← h.2]; exact min_le_right _ _
      · obtain ⟨x, hx, hle⟩ := loading_out h
        simp only [Out.force.injEq] at hx
        rw [hx]; exact hle

/-- **C275**: with the contact point on the line of both centres, loads of a wire are a pull on each body towards the other, without torque, in periodic cells as elsewhere. -/
theorem C275_pull (periodic : Bool) {Fn : ℝ} (hF : Fn ≤ 0) (n pos1 pos2 : V3) (a b : ℝ) {c : V3} (h1 : c = pos1 + a • n) (h2 : c = pos2 - b • n) :
    loads periodic Fn n c pos1 pos2 = { f1 := |Fn| • n, t1 := 0, f2 := -(|Fn| • n), t2 := 0 } := by
  have e : Fn = -|Fn| := by rw [abs_of_nonpos hF]; ring
  have hz : ∀ x y : ℝ, cross (x • n) (y • n) = 0 := by
    intro x y
    funext i
    fin_cases i <;> simp [cross] <;> ring
  unfold loads
  rcases periodic
  · rw [if_neg (by simp)]
    have c1 : c - pos1 = a • n := by rw [h1]; simp
    have c2 : c - pos2 = (-b) • n := by rw [h2]; module
    rw [c1, c2, hz, hz]
    congr 1
    · rw [abs_of_nonpos hF]; module
    · simp
    · rw [abs_of_nonpos hF]; module
  · rw [if_pos rfl]
    congr 1
    · rw [abs_of_nonpos hF]; module
    · rw [abs_of_nonpos hF]; module

/-- The points of the curve are below the line of the elastic stiffness. -/
def Softens (kn : ℝ) (qs : List Pt) : Prop := ∀ q ∈ qs, kn * q.1 ≤ q.2

theorem curve_softens {kn : ℝ} {qs : List Pt} (hs : List.Pairwise (fun a b : Pt => b.1 < a.1) (0 :: qs)) (h : Softens kn qs) {D F : ℝ} (hc : OnCurve (0 :: qs) D F) : kn * D ≤ F := by
  obtain ⟨l, a, b, r, e, h1, h2, h3⟩ := hc
  have hall : ∀ q ∈ 0 :: qs, kn * q.1 ≤ q.2 := by
    intro q hq
    rcases List.mem_cons.1 hq with rfl | hq
    · simp
    · exact h q hq
  have ha := hall a (by rw [e]; simp)
  have hb := hall b (by rw [e]; simp)
  have hd : b.1 - a.1 < 0 := by linarith
  have hlam : 0 ≤ (D - a.1) / (b.1 - a.1) := div_nonneg_of_nonpos (by linarith) hd.le
  have hlam1 : (D - a.1) / (b.1 - a.1) ≤ 1 := by rw [div_le_one_of_neg hd]; linarith
  have eF : F = a.2 + (D - a.1) / (b.1 - a.1) * (b.2 - a.2) := by rw [h3]; ring
  have eD : D = a.1 + (D - a.1) / (b.1 - a.1) * (b.1 - a.1) := by rw [div_mul_cancel₀ _ hd.ne]; ring
  generalize (D - a.1) / (b.1 - a.1) = t at *
  rw [eF, eD]
  nlinarith [mul_nonneg hlam (sub_nonneg.2 hb), mul_nonneg (sub_nonneg.2 hlam1) (sub_nonneg.2 ha)]

/-- **C275, part**: if the curve softens, a wire only pulls when it is longer than at first, and the limit factor then is between zero and one.  Missing: curves which stiffen. -/
theorem C275_limit_partial {p0 : Phys} {qs : List Pt} (h0 : Fresh p0 qs) (hsoft : Softens p0.kn qs) {ds : List ℝ} {p : Phys} (h : Hist p0 ds p) (hds : ∀ d ∈ ds, lastD qs < d - p0.initD) {d : ℝ}
    (hd : lastD qs < d - p0.initD) {p' : Phys} {f : ℝ} (hf : p.law d = .ok (p', .force f)) (hneg : f < 0) : d - p0.initD < 0 ∧ p'.limit = (d - p0.initD) / lastD qs ∧ 0 < p'.limit ∧ p'.limit < 1 := by
  obtain ⟨F, hi⟩ := h.inv h0 hds
  obtain ⟨l1, l2⟩ := hi.law h0 hd
  have key : d - p0.initD < 0 ∧ p'.limit = |(d - p0.initD) / lastD qs| := by
    rcases lt_or_ge (deepest p0.initD ds) (d - p0.initD) with hm | hm
    · obtain ⟨p2, e, -, hl⟩ := l1 hm
      rw [hf] at e
      simp only [Res.ok.injEq, Prod.mk.injEq, Out.force.injEq] at e
      rw [← e.2, if_pos hneg, ← e.1] at hl
      refine ⟨?_, hl⟩
      have hc := curve_softens h0.sorted hsoft hi.curve
      have h3 : F + p0.kn * (d - p0.initD - deepest p0.initD ds) < 0 := by
        rcases min_lt_iff.1 (e.2 ▸ hneg) with h | h
        · exact h
        · exact absurd h (lt_irrefl _)
      have h4 : p0.kn * (d - p0.initD) < 0 := by
        have : p0.kn * (d - p0.initD - deepest p0.initD ds) = p0.kn * (d - p0.initD) - p0.kn * deepest p0.initD ds := by ring
        linarith
      by_contra hcon
      have := mul_nonneg h0.kn.le (not_lt.1 hcon)
      linarith
    · obtain ⟨p2, F', e, hc, -, hl⟩ := l2 hm
      rw [hf] at e
      simp only [Res.ok.injEq, Prod.mk.injEq, Out.force.injEq] at e
      rw [← e.2, if_pos hneg, ← e.1] at hl
      refine ⟨?_, hl⟩
      have hc := curve_softens h0.sorted hsoft hc
      have h3 : F' < 0 := by
        rcases min_lt_iff.1 (e.2 ▸ hneg) with h | h
        · exact h
        · exact absurd h (lt_irrefl _)
      by_contra hcon
      have := mul_nonneg h0.kn.le (not_lt.1 hcon)
      linarith
  obtain ⟨hneg', hl⟩ := key
  have hpos : 0 < (d - p0.initD) / lastD qs := div_pos_of_neg_of_neg hneg' (hd.trans hneg')
  rw [abs_of_pos hpos] at hl
  refine ⟨hneg', hl, by rw [hl]; exact hpos, ?_⟩
  rw [hl, div_lt_one_of_neg (hd.trans hneg')]
  exact hd

example : Softens wire.kn [(-1, -1), (-3, -2)] := by
  intro q hq
  simp at hq
  rcases hq with rfl | rfl <;> norm_num [wire]

/-- A link which stiffens: one unit of force at one of extension, three at two. -/
noncomputable def stiff : Phys where
  initD := 0
  linked := true
  twist := false
  pts := [0, (-1, -1), (-2, -3)]
  ks := [1, 2]
  kn := 1
  plastD := 0
  limit := 0
  dL := 0

/-- **C275 violated**: a wire which stiffens pulls after unloading although it is shorter than at first. -/
theorem C275_violated : Fresh stiff [(-1, -1), (-2, -3)] ∧ ∃ p1 p2 f1 f2, stiff.law (-3 / 2) = .ok (p1, .force f1) ∧ p1.law (1 / 4) = .ok (p2, .force f2) ∧ f2 < 0 := by
  have hf : Fresh stiff [(-1, -1), (-2, -3)] := by
    refine ⟨rfl, rfl, rfl, by simp, ?_, ?_, by norm_num [stiff]⟩
    · norm_num
    · have h := SlopesOf.cons 0 (-1, -1) [(-2, -3)] _ (.cons (-1, -1) (-2, -3) [] _ (.one _))
      norm_num at h
      exact h
  refine ⟨hf, ?_⟩
  have hl : lastD [(-1, -1), (-2, -3)] = -2 := by simp [lastD]
  have hi : stiff.initD = 0 := rfl
  obtain ⟨_, l2⟩ := (hf.inv).law hf (d := -3 / 2) (by rw [hl, hi]; norm_num)
  obtain ⟨p1, F1, e1, c1, i1, -⟩ := l2 (by rw [hi]; norm_num)
  obtain ⟨l1, _⟩ := i1.law hf (d := 1 / 4) (by rw [hl, hi]; norm_num)
  obtain ⟨p2, e2, -⟩ := l1 (by rw [hi]; norm_num)
  refine ⟨p1, p2, _, _, e1, e2, ?_⟩
  have : F1 = -2 := by
    have : stiff.law (-3 / 2) = .ok ({ stiff with pts := [(-3 / 2, -2), (-1, -1), (-2, -3)], plastD := 1 / 2, limit := 3 / 4 }, .force (-2)) := by
      norm_num [Phys.law, stiff, Phys.loading, load, Phys.keep, quot]
    rw [this] at e1
    simp only [Res.ok.injEq, Prod.mk.injEq] at e1
    have hp := i1.pts
    rw [← e1.1] at hp
    simp at hp
    exact hp.2.symm
  rw [this, hi]
  norm_num [stiff]

end Verif.Wire
