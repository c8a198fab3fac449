import Verif.Handle.Lemmas
import Verif.Cpm.Lemmas

/-!
# Dimensions of spheres and facets, moving and copying spheres (C307-C310)
-/
namespace Verif.Handle

open Verif.Mech

/-! ## C307 -/

/-- The spheres a call is about: those of the list, or without a list those of the whole scene, with the mask. -/
def About (sc : Scene) (ids : List ℤ) (mask : ℤ) (k : ℕ) (b : Body) (r : ℝ) : Prop :=
  (ids = [] ∨ ∃ i ∈ ids, slot sc.length i = some k) ∧ sc[k]? = some (some b) ∧ b.radius = some r ∧ fits mask b

theorem mem_masked {sc : Scene} {mask : ℤ} {i : ℤ} :
    i ∈ masked sc mask ↔ ∃ (k : ℕ) (b : Body), i = k ∧ sc[k]? = some (some b) ∧ b.mask &&& mask.toNat ≠ 0 := by
  unfold masked
  simp only [List.mem_map, List.mem_filter, List.mem_range]
  constructor
  · rintro ⟨k, ⟨hk, h⟩, rfl⟩
    cases hb : (sc[k]?).join with
    | none => simp [hb] at h
    | some b => exact ⟨k, b, rfl, Option.join_eq_some_iff.mp hb, by simpa [hb] using h⟩
  · rintro ⟨k, b, rfl, hb, hm⟩
    exact ⟨k, ⟨(List.getElem?_eq_some_iff.mp hb).1, by simp [hb, hm]⟩, rfl⟩

theorem slot_nat {n k : ℕ} (h : k < n) : slot n (k : ℤ) = some k := by
  unfold slot
  rw [if_pos (by omega), if_pos (by omega)]; simp

/-- What a call that returns has looked at. -/
theorem chosen_about {least : ℕ} {sc : Scene} {ids is : List ℤ} {mask : ℤ} (h : chosen least sc ids mask = .ok is) (k : ℕ) (b : Body) (r : ℝ) :
    (k, b, r) ∈ spheresOf sc mask is ↔ About sc ids mask k b r := by
  unfold chosen at h
  have base : (k, b, r) ∈ spheresOf sc mask is ↔ (∃ i ∈ is, slot sc.length i = some k) ∧ sc[k]? = some (some b) ∧ b.radius = some r ∧ fits mask b := by
    unfold spheresOf
    rw [List.mem_filterMap]
    constructor
    · rintro ⟨i, hi, h⟩
      have := sphereAt_some.mp h
      exact ⟨⟨i, hi, this.1⟩, this.2⟩
    · rintro ⟨⟨i, hi, h1⟩, h2⟩
      exact ⟨i, hi, sphereAt_some.mpr ⟨h1, h2⟩⟩
  rw [base]
  by_cases hl : ids.length < 1
  · have he : ids = [] := List.length_eq_zero_iff.mp (by omega)
    rw [if_pos hl] at h
    by_cases hm : mask > -1
    · rw [if_pos hm] at h
      split_ifs at h
      cases h
      unfold About
      constructor
      · rintro ⟨-, h⟩; exact ⟨Or.inl he, h⟩
      · rintro ⟨-, h⟩
        refine ⟨⟨k, mem_masked.mpr ⟨k, b, rfl, h.1, ?_⟩, slot_nat (List.getElem?_eq_some_iff.mp h.1).1⟩, h⟩
        rw [Nat.and_comm]; exact h.2.2 (by omega)
    · rw [if_neg hm] at h; cases h
  · rw [if_neg hl] at h
    cases h
    have he : ids ≠ [] := fun h => hl (by simp [h])
    unfold About
    simp [he]

theorem sphereDims_ok {sc : Scene} {ids : List ℤ} {mask : ℤ} {d : Dims} (h : sphereDims sc ids mask = .ok d) :
    ∃ is, chosen 2 sc ids mask = .ok is ∧ d = (spheresOf sc mask is).foldl addS ⟨Ext.zero, 0, 0⟩ := by
  unfold sphereDims at h
  cases hc : chosen 2 sc ids mask with
  | ok is =>
    rw [hc, Res.bind_ok] at h
    refine ⟨is, rfl, ?_⟩
    by_cases hv : ∃ i ∈ is, slot sc.length i = none
    · rw [sphereLoop_throws _ _ _ hv] at h; cases h
    · push Not at hv
      rw [sphereLoop_eq _ _ _ hv] at h
      cases h; rfl
  | throws => rw [hc] at h; cases h
  | ub => rw [hc] at h; cases h

/-- The box returned holds every sphere asked for, and each of its six faces touches the one of them whose identifier is given. -/
theorem C307_box (sc : Scene) (ids : List ℤ) (mask : ℤ) (d : Dims) (h : sphereDims sc ids mask = .ok d) :
    (∀ k b r, About sc ids mask k b r → ∀ j, d.ext.lo j ≤ b.pos j - r ∧ b.pos j + r ≤ d.ext.hi j) ∧
    (d.ext.n ≠ 0 → ∀ j, (∃ b r, About sc ids mask (d.ext.loId j) b r ∧ d.ext.lo j = b.pos j - r) ∧
      ∃ b r, About sc ids mask (d.ext.hiId j) b r ∧ d.ext.hi j = b.pos j + r) := by
  obtain ⟨is, hc, rfl⟩ := sphereDims_ok h
  have T := fold_tight (spheresOf sc mask is) ⟨Ext.zero, 0, 0⟩ [] tight_zero
  rw [List.nil_append] at T
  constructor
  · intro k b r hb j
    exact T.inside _ (List.mem_map_of_mem ((chosen_about hc k b r).mpr hb)) j
  · intro hn j
    have hL : (spheresOf sc mask is).map boxS ≠ [] := fun h' => hn (by rw [T.n, h']; rfl)
    constructor
    · obtain ⟨x, hx, h1, h2⟩ := T.lo hL j
      obtain ⟨⟨k, b, r⟩, hy, rfl⟩ := List.mem_map.mp hx
      rw [h1]
      exact ⟨b, r, (chosen_about hc k b r).mp hy, h2⟩
    · obtain ⟨x, hx, h1, h2⟩ := T.hi hL j
      obtain ⟨⟨k, b, r⟩, hy, rfl⟩ := List.mem_map.mp hx
      rw [h1]
      exact ⟨b, r, (chosen_about hc k b r).mp hy, h2⟩

/-- With a list of identifiers, the number, volume and mass are sums over it; an identifier out of range is an error. -/
theorem C307_sums (sc : Scene) (ids : List ℤ) (mask : ℤ) (hne : ids ≠ []) :
    ((∃ i ∈ ids, slot sc.length i = none) → sphereDims sc ids mask = .throws) ∧
    ((∀ i ∈ ids, slot sc.length i ≠ none) → ∃ d, sphereDims sc ids mask = .ok d ∧ d.ext.n = (spheresOf sc mask ids).length ∧
      d.volume = ((spheresOf sc mask ids).map fun x => 4 / 3 * Real.pi * x.2.2 ^ 3).sum ∧
      d.mass = ((spheresOf sc mask ids).map fun x => x.2.1.mass).sum ∧
      d.ext.center = fun j => (d.ext.lo j + d.ext.hi j) / 2) := by
  rw [sphereDims_ids sc ids mask hne]
  refine ⟨fun h => sphereLoop_throws _ _ _ h _, fun h => ⟨_, sphereLoop_eq _ _ _ h _, ?_, ?_, ?_, ?_⟩⟩
  · have T := fold_tight (spheresOf sc mask ids) ⟨Ext.zero, 0, 0⟩ [] tight_zero
    rw [T.n]; simp
  · rw [(fold_sums _ _).1]; simp
  · rw [(fold_sums _ _).2]; simp
  · funext j
    simp only [Ext.center, Pi.add_apply, Pi.smul_apply, Pi.sub_apply, smul_eq_mul]
    ring

/-- The order of the list does not matter. -/
theorem C307_order (sc : Scene) (ids ids' : List ℤ) (mask : ℤ) (hp : ids.Perm ids') (d d' : Dims) (h : sphereDims sc ids mask = .ok d)
    (h' : sphereDims sc ids' mask = .ok d') :
    d.ext.lo = d'.ext.lo ∧ d.ext.hi = d'.ext.hi ∧ d.ext.n = d'.ext.n ∧ d.volume = d'.volume ∧ d.mass = d'.mass := by
  by_cases hne : ids = []
  · have : ids' = [] := by rw [hne] at hp; exact hp.nil_eq.symm
    rw [this, ← hne, h] at h'
    cases h'
    exact ⟨rfl, rfl, rfl, rfl, rfl⟩
  have hne' : ids' ≠ [] := fun e => hne (by rw [e] at hp; exact hp.eq_nil)
  have ex : ∀ (l : List ℤ), l ≠ [] → ∀ e, sphereDims sc l mask = .ok e → e = (spheresOf sc mask l).foldl addS ⟨Ext.zero, 0, 0⟩ := by
    intro l hl e he
    rw [sphereDims_ids _ _ _ hl] at he
    by_cases hv : ∃ i ∈ l, slot sc.length i = none
    · rw [sphereLoop_throws _ _ _ hv] at he; cases he
    · push Not at hv
      rw [sphereLoop_eq _ _ _ hv] at he
      cases he; rfl
  have hs : (spheresOf sc mask ids).Perm (spheresOf sc mask ids') := hp.filterMap _
  have T := fold_tight (spheresOf sc mask ids) ⟨Ext.zero, 0, 0⟩ [] tight_zero
  have T' := fold_tight (spheresOf sc mask ids') ⟨Ext.zero, 0, 0⟩ [] tight_zero
  rw [List.nil_append] at T T'
  rw [ex ids hne d h, ex ids' hne' d' h']
  have sums : ((spheresOf sc mask ids).foldl addS ⟨Ext.zero, 0, 0⟩).ext.n = ((spheresOf sc mask ids').foldl addS ⟨Ext.zero, 0, 0⟩).ext.n ∧
      ((spheresOf sc mask ids).foldl addS ⟨Ext.zero, 0, 0⟩).volume = ((spheresOf sc mask ids').foldl addS ⟨Ext.zero, 0, 0⟩).volume ∧
      ((spheresOf sc mask ids).foldl addS ⟨Ext.zero, 0, 0⟩).mass = ((spheresOf sc mask ids').foldl addS ⟨Ext.zero, 0, 0⟩).mass := by
    refine ⟨?_, ?_, ?_⟩
    · rw [T.n, T'.n, List.length_map, List.length_map]; exact hs.length_eq
    · rw [(fold_sums _ _).1, (fold_sums _ _).1, (hs.map _).sum_eq]
    · rw [(fold_sums _ _).2, (fold_sums _ _).2, (hs.map _).sum_eq]
  by_cases hL : spheresOf sc mask ids = []
  · have hL' : spheresOf sc mask ids' = [] := by rw [hL] at hs; exact hs.nil_eq.symm
    rw [hL, hL']
    exact ⟨rfl, rfl, rfl, rfl, rfl⟩
  · obtain ⟨a, b⟩ := tight_unique T T' (by simpa using hL) fun x => (hs.map boxS).mem_iff
    exact ⟨a, b, sums⟩

/-- A sphere of radius `r` at `(x,0,0)` with a mask, of density one, moving. -/
noncomputable def ball (x r : ℝ) (mask : ℕ) : Body := ⟨![x, 0, 0], Quat.one, ![1, 0, 0], some r, none, mask, 4, 1, 1, 4⟩
/-- A facet. -/
def plate (mask : ℕ) : Body := ⟨0, Quat.one, 0, none, some (![1, 0, 0], ![0, 1, 0], ![0, 0, 1]), mask, 0, 0, 1, 63⟩

example : ∃ d, sphereDims [some (ball 0 1 1), none, some (ball 10 2 2), some (plate 1)] [0, 1, -2, 3] (-1) = .ok d ∧ d.ext.n = 2 ∧ d.mass = 8 ∧
    d.ext.hi 0 = 12 := by
  obtain ⟨d, hd, hn, -, hm, -⟩ := (C307_sums [some (ball 0 1 1), none, some (ball 10 2 2), some (plate 1)] [0, 1, -2, 3] (-1) (by simp)).2
    (by simp [slot])
  have e : spheresOf [some (ball 0 1 1), none, some (ball 10 2 2), some (plate 1)] (-1) [0, 1, -2, 3] = [(0, ball 0 1 1, 1), (2, ball 10 2 2, 2)] := by
    simp [spheresOf, sphereAt, named, slot, ball, plate, fits]
  rw [e] at hn hm
  refine ⟨d, hd, hn, by rw [hm]; norm_num [ball], ?_⟩
  obtain ⟨is, hc, rfl⟩ := sphereDims_ok hd
  have : is = [0, 1, -2, 3] := by simp [chosen] at hc; exact hc.symm
  rw [this, e]
  norm_num [addS, Ext.add, ball, Ext.zero]

/-! ## C308 -/

/-- The facets a call is about, all bodies being facets. -/
def AboutFacet (sc : Scene) (ids : List ℤ) (mask : ℤ) (k : ℕ) (b : Body) (v : V3 × V3 × V3) : Prop :=
  (∃ i ∈ ids, slot sc.length i = some k) ∧ sc[k]? = some (some b) ∧ b.verts = some v ∧ fits mask b

/-- The corners of a facet. -/
def corners (b : Body) (v : V3 × V3 × V3) : List V3 := [b.pos + b.ori.rot v.1, b.pos + b.ori.rot v.2.1, b.pos + b.ori.rot v.2.2]

theorem facetBox_corners (b : Body) (v : V3 × V3 × V3) (j : Fin 3) :
    (∀ p ∈ corners b v, (facetBox b v).1 j ≤ p j ∧ p j ≤ (facetBox b v).2 j) ∧ (∃ p ∈ corners b v, p j = (facetBox b v).1 j) ∧
      ∃ p ∈ corners b v, p j = (facetBox b v).2 j := by
  simp only [corners, facetBox, List.mem_cons, List.not_mem_nil, or_false, forall_eq_or_imp, forall_eq, exists_eq_or_imp, exists_eq_left]
  refine ⟨⟨⟨?_, ?_⟩, ⟨?_, ?_⟩, ?_, ?_⟩, ?_, ?_⟩
  · exact (min_le_left _ _).trans (min_le_left _ _)
  · exact (le_max_left _ _).trans (le_max_left _ _)
  · exact (min_le_left _ _).trans (min_le_right _ _)
  · exact (le_max_right _ _).trans (le_max_left _ _)
  · exact min_le_right _ _
  · exact le_max_right _ _
  · rcases min_choice (min ((b.pos + b.ori.rot v.1) j) ((b.pos + b.ori.rot v.2.1) j)) ((b.pos + b.ori.rot v.2.2) j) with h | h
    · rcases min_choice ((b.pos + b.ori.rot v.1) j) ((b.pos + b.ori.rot v.2.1) j) with h' | h'
      · left; rw [h, h']
      · right; left; rw [h, h']
    · right; right; rw [h]
  · rcases max_choice (max ((b.pos + b.ori.rot v.1) j) ((b.pos + b.ori.rot v.2.1) j)) ((b.pos + b.ori.rot v.2.2) j) with h | h
    · rcases max_choice ((b.pos + b.ori.rot v.1) j) ((b.pos + b.ori.rot v.2.1) j) with h' | h'
      · left; rw [h, h']
      · right; left; rw [h, h']
    · right; right; rw [h]

theorem facetLoop_tight (sc : Scene) (mask : ℤ) (ids : List ℤ) (e : Ext) (M : List (ℕ × V3 × V3)) (hT : Tight e M) (e' : Ext)
    (h : facetLoop sc mask e ids = .ok e') :
    ∃ N, Tight e' (M ++ N) ∧ ∀ x, x ∈ N ↔ ∃ b v, AboutFacet sc ids mask x.1 b v ∧ x.2 = facetBox b v := by
  induction ids generalizing e M with
  | nil =>
    simp only [facetLoop, Res.ok.injEq] at h
    subst h
    exact ⟨[], by simpa using hT, by simp [AboutFacet]⟩
  | cons i is ih =>
    unfold facetLoop at h
    rw [idx_eq] at h
    cases hk : slot sc.length i with
    | none => rw [hk] at h; cases h
    | some k =>
      rw [hk] at h
      dsimp only at h
      have skip : (∀ b v, ¬ (sc[k]? = some (some b) ∧ b.verts = some v ∧ fits mask b)) → facetLoop sc mask e is = .ok e' →
          ∃ N, Tight e' (M ++ N) ∧ ∀ x, x ∈ N ↔ ∃ b v, AboutFacet sc (i :: is) mask x.1 b v ∧ x.2 = facetBox b v := by
        intro hno h
        obtain ⟨N, h1, h2⟩ := ih e M hT h
        refine ⟨N, h1, fun x => (h2 x).trans ?_⟩
        constructor
        · rintro ⟨b, v, ⟨⟨j, hj, hs⟩, hr⟩, hx⟩
          exact ⟨b, v, ⟨⟨j, List.mem_cons_of_mem _ hj, hs⟩, hr⟩, hx⟩
        · rintro ⟨b, v, ⟨⟨j, hj, hs⟩, hr⟩, hx⟩
          rcases List.mem_cons.mp hj with rfl | hj
          · rw [hk] at hs; cases hs
            exact (hno b v hr).elim
          · exact ⟨b, v, ⟨⟨j, hj, hs⟩, hr⟩, hx⟩
      cases hb : (sc[k]?).join with
      | none =>
        rw [hb] at h
        exact skip (fun b v hc => by rw [hc.1] at hb; cases hb) h
      | some b =>
        rw [hb] at h
        dsimp only at h
        have hb' := Option.join_eq_some_iff.mp hb
        cases hvv : b.verts with
        | none => rw [hvv] at h; cases h
        | some v =>
          rw [hvv] at h
          dsimp only at h
          rw [skips_eq] at h
          by_cases hf : fits mask b
          · simp only [hf, decide_true, Bool.not_true, Bool.false_eq_true, if_false] at h
            obtain ⟨N, h1, h2⟩ := ih _ (M ++ [(k, facetBox b v)]) (tight_add hT k _ _) h
            refine ⟨(k, facetBox b v) :: N, by simpa using h1, fun x => ?_⟩
            rw [List.mem_cons, h2]
            constructor
            · rintro (rfl | ⟨b', v', ⟨⟨j, hj, hs⟩, hr⟩, hx⟩)
              · exact ⟨b, v, ⟨⟨i, List.mem_cons_self, hk⟩, hb', hvv, hf⟩, rfl⟩
              · exact ⟨b', v', ⟨⟨j, List.mem_cons_of_mem _ hj, hs⟩, hr⟩, hx⟩
            · rintro ⟨b', v', ⟨⟨j, hj, hs⟩, hr⟩, hx⟩
              rcases List.mem_cons.mp hj with rfl | hj
              · rw [hk] at hs
                simp only [Option.some.injEq] at hs
                obtain ⟨x1, x2⟩ := x
                simp only at hs hx hr
                subst hs
                rw [hb'] at hr
                obtain ⟨hr1, hr2, -⟩ := hr
                cases hr1
                rw [hvv] at hr2; cases hr2
                left; rw [hx]
              · right; exact ⟨b', v', ⟨⟨j, hj, hs⟩, hr⟩, hx⟩
          · simp only [hf, decide_false, Bool.not_false, if_true] at h
            refine skip (fun b' v' hc => ?_) h
            rw [hb'] at hc
            obtain ⟨hc1, -, hc3⟩ := hc
            cases hc1
            exact hf hc3

/-- The box returned for a list of facets holds every corner of those whose mask fits, and each of its faces touches the facet whose identifier is given. -/
theorem C308_box_partial (sc : Scene) (ids : List ℤ) (mask : ℤ) (hne : ids ≠ []) (e : Ext) (h : facetDims sc ids mask = .ok e) :
    (∀ k b v, AboutFacet sc ids mask k b v → ∀ p ∈ corners b v, ∀ j, e.lo j ≤ p j ∧ p j ≤ e.hi j) ∧
    (e.n ≠ 0 → ∀ j, (∃ b v, AboutFacet sc ids mask (e.loId j) b v ∧ ∃ p ∈ corners b v, e.lo j = p j) ∧
      ∃ b v, AboutFacet sc ids mask (e.hiId j) b v ∧ ∃ p ∈ corners b v, e.hi j = p j) := by
  have hl : ¬ ids.length < 1 := by
    have := List.length_pos_iff.mpr hne; omega
  unfold facetDims chosen at h
  rw [if_neg hl, Res.bind_ok] at h
  obtain ⟨N, T, hN⟩ := facetLoop_tight sc mask ids Ext.zero [] tight_zero e h
  rw [List.nil_append] at T
  constructor
  · intro k b v hb p hp j
    obtain ⟨h1, h2⟩ := T.inside (k, facetBox b v) ((hN _).mpr ⟨b, v, hb, rfl⟩) j
    obtain ⟨h3, h4⟩ := (facetBox_corners b v j).1 p hp
    exact ⟨h1.trans h3, h4.trans h2⟩
  · intro hn j
    have hL : N ≠ [] := fun h' => hn (by rw [T.n, h']; rfl)
    constructor
    · obtain ⟨x, hx, h1, h2⟩ := T.lo hL j
      obtain ⟨b, v, hb, hx2⟩ := (hN x).mp hx
      obtain ⟨p, hp, e1⟩ := (facetBox_corners b v j).2.1
      rw [h1]
      exact ⟨b, v, hb, p, hp, by rw [h2, hx2, e1]⟩
    · obtain ⟨x, hx, h1, h2⟩ := T.hi hL j
      obtain ⟨b, v, hb, hx2⟩ := (hN x).mp hx
      obtain ⟨p, hp, e1⟩ := (facetBox_corners b v j).2.2
      rw [h1]
      exact ⟨b, v, hb, p, hp, by rw [h2, hx2, e1]⟩

/-- A body that is no facet, even one the mask leaves out, makes the call fail; the same list of spheres with a facet in it is dealt with. -/
theorem C308_violated : facetDims [some (plate 1), some (ball 0 1 2)] [0, 1] 1 = .throws ∧
    ∃ d, sphereDims [some (plate 1), some (ball 0 1 2)] [0, 1] 2 = .ok d ∧ d.ext.n = 1 := by
  constructor
  · simp [facetDims, chosen, facetLoop, idx_eq, slot, plate, ball, skips, Res.bind]
  · obtain ⟨d, hd, hn, -⟩ := (C307_sums [some (plate 1), some (ball 0 1 2)] [0, 1] 2 (by simp)).2 (by simp [slot])
    refine ⟨d, hd, ?_⟩
    rw [hn]
    simp [spheresOf, sphereAt, named, slot, ball, plate, fits]

example : ∃ e, facetDims [some (plate 1), none, some (plate 2)] [0, 1, 2] 1 = .ok e ∧ e.n = 1 := by
  refine ⟨Ext.zero.add 0 (facetBox (plate 1) (![1, 0, 0], ![0, 1, 0], ![0, 0, 1])).1 (facetBox (plate 1) (![1, 0, 0], ![0, 1, 0], ![0, 0, 1])).2, ?_, rfl⟩
  simp [facetDims, chosen, facetLoop, idx_eq, slot, plate, skips, Res.bind]

end Verif.Handle
