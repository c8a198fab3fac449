import Verif.Handle.Model
import Mathlib.Tactic.Linarith
import Mathlib.Tactic.Ring
import Mathlib.Tactic.FinCases

/-!
# Specification of the selection, and lemmas about the loops
-/
namespace Verif.Handle

open Verif.Mech

/-- Python's indexing: from the start, or from the end if negative. -/
def slot (n : ℕ) (i : ℤ) : Option ℕ :=
  if 0 ≤ i then (if i < n then some i.toNat else none) else (if -(n : ℤ) ≤ i then some (n + i).toNat else none)

/-- Bodies with a mask having a bit in common, all of them with a negative mask. -/
def fits (mask : ℤ) (b : Body) : Prop := 0 ≤ mask → mask.toNat &&& b.mask ≠ 0

instance (mask : ℤ) (b : Body) : Decidable (fits mask b) := by unfold fits; infer_instance

/-- The body named by an identifier, with its place. -/
def named (sc : Scene) (i : ℤ) : Option (ℕ × Body) :=
  (slot sc.length i).bind fun k => (sc[k]?).join.map fun b => (k, b)

/-- The sphere named by an identifier if it is one and its mask fits. -/
def sphereAt (sc : Scene) (mask : ℤ) (i : ℤ) : Option (ℕ × Body × ℝ) :=
  (named sc i).bind fun kb => kb.2.radius.bind fun r => if fits mask kb.2 then some (kb.1, kb.2, r) else none

/-- The spheres of a list. -/
def spheresOf (sc : Scene) (mask : ℤ) (ids : List ℤ) : List (ℕ × Body × ℝ) := ids.filterMap (sphereAt sc mask)

theorem idx_eq (sc : Scene) (i : ℤ) : idx sc i = slot sc.length i := by
  unfold idx slot
  by_cases h : 0 ≤ i
  · by_cases h2 : i < sc.length
    · simp only [ge_iff_le, h, if_true, h2]
      rw [if_neg (by omega)]
    · simp only [ge_iff_le, h, if_true, h2, if_false]
      rw [if_pos (by omega)]
  · by_cases h2 : -(sc.length : ℤ) ≤ i
    · simp only [ge_iff_le, h, if_false, h2, if_true]
      rw [if_neg (by omega)]
    · simp only [ge_iff_le, h, if_false, h2]
      rw [if_pos (by omega)]

theorem skips_eq (mask : ℤ) (b : Body) : skips mask b = !decide (fits mask b) := by
  unfold skips fits
  by_cases h : 0 ≤ mask
  · have h' : mask > -1 := by omega
    by_cases h2 : mask.toNat &&& b.mask = 0 <;> simp [h, h', h2]
  · have h' : ¬ mask > -1 := by omega
    simp [h, h']

/-- One sphere. -/
noncomputable def addS (d : Dims) (x : ℕ × Body × ℝ) : Dims :=
  ⟨d.ext.add x.1 (x.2.1.pos - fun _ => x.2.2) (x.2.1.pos + fun _ => x.2.2), d.volume + 4 / 3 * Real.pi * x.2.2 * x.2.2 * x.2.2, d.mass + x.2.1.mass⟩

theorem sphereLoop_eq (sc : Scene) (mask : ℤ) (ids : List ℤ) (hv : ∀ i ∈ ids, slot sc.length i ≠ none) (d : Dims) :
    sphereLoop sc mask d ids = .ok ((spheresOf sc mask ids).foldl addS d) := by
  induction ids generalizing d with
  | nil => rfl
  | cons i is ih =>
    have ih := ih fun j hj => hv j (List.mem_cons_of_mem _ hj)
    obtain ⟨k, hk⟩ := Option.ne_none_iff_exists'.mp (hv i List.mem_cons_self)
    unfold sphereLoop
    rw [idx_eq, hk]
    dsimp only
    cases hb : (sc[k]?).join with
    | none => simp only [ih]; simp [spheresOf, sphereAt, named, hk, hb]
    | some b =>
      dsimp only
      cases hr : b.radius with
      | none => simp only [ih]; simp [spheresOf, sphereAt, named, hk, hb, hr]
      | some r =>
        dsimp only
        rw [skips_eq]
        by_cases hf : fits mask b
        · simp only [hf, decide_true, Bool.not_true, Bool.false_eq_true, if_false, ih]
          simp [spheresOf, sphereAt, named, hk, hb, hr, hf, addS]
        · simp only [hf, decide_false, Bool.not_false, if_true, ih]
          simp [spheresOf, sphereAt, named, hk, hb, hr, hf]

theorem sphereLoop_throws (sc : Scene) (mask : ℤ) (ids : List ℤ) (hv : ∃ i ∈ ids, slot sc.length i = none) (d : Dims) :
    sphereLoop sc mask d ids = .throws := by
  induction ids generalizing d with
  | nil => obtain ⟨i, hi, -⟩ := hv; simp at hi
  | cons i is ih =>
    unfold sphereLoop
    rw [idx_eq]
    cases hk : slot sc.length i with
    | none => rfl
    | some k =>
      have ih := ih (by
        obtain ⟨j, hj, h⟩ := hv
        rcases List.mem_cons.mp hj with rfl | hj
        · rw [hk] at h; cases h
        · exact ⟨j, hj, h⟩)
      dsimp only
      cases hb : (sc[k]?).join with
      | none => exact ih d
      | some b =>
        dsimp only
        cases hr : b.radius with
        | none => exact ih d
        | some r =>
          dsimp only
          split_ifs
          · exact ih d
          · exact ih _

/-- A box with where it comes from. -/
structure Tight (e : Ext) (L : List (ℕ × V3 × V3)) : Prop where
  n : e.n = L.length
  inside : ∀ x ∈ L, ∀ j, e.lo j ≤ x.2.1 j ∧ x.2.2 j ≤ e.hi j
  lo : L ≠ [] → ∀ j, ∃ x ∈ L, e.loId j = x.1 ∧ e.lo j = x.2.1 j
  hi : L ≠ [] → ∀ j, ∃ x ∈ L, e.hiId j = x.1 ∧ e.hi j = x.2.2 j

theorem tight_zero : Tight Ext.zero [] := ⟨rfl, by simp, fun h => (h rfl).elim, fun h => (h rfl).elim⟩

theorem tight_add {e : Ext} {L : List (ℕ × V3 × V3)} (h : Tight e L) (id : ℕ) (lo hi : V3) : Tight (e.add id lo hi) (L ++ [(id, lo, hi)]) := by
  have hn : e.n = 0 ↔ L = [] := by rw [h.n]; exact List.length_eq_zero_iff
  refine ⟨by simp [Ext.add, h.n], ?_, ?_, ?_⟩
  · intro x hx j
    simp only [Ext.add]
    rcases List.mem_append.mp hx with hx | hx
    · have h0 : ¬ e.n = 0 := fun h' => by rw [hn.mp h'] at hx; simp at hx
      obtain ⟨a, b⟩ := h.inside x hx j
      simp only [h0, or_false]
      constructor
      · split_ifs with hc
        · linarith
        · exact a
      · split_ifs with hc
        · linarith
        · exact b
    · simp only [List.mem_singleton] at hx
      subst hx
      constructor
      · split_ifs with hc
        · exact le_refl _
        · push Not at hc; exact hc.1
      · split_ifs with hc
        · exact le_refl _
        · push Not at hc; exact hc.1
  · intro _ j
    simp only [Ext.add]
    by_cases hc : lo j < e.lo j ∨ e.n = 0
    · exact ⟨(id, lo, hi), by simp, by rw [if_pos hc], by rw [if_pos hc]⟩
    · push Not at hc
      obtain ⟨x, hx, h1, h2⟩ := h.lo (fun h' => hc.2 (hn.mpr h')) j
      have hc' : ¬ (lo j < e.lo j ∨ e.n = 0) := by push Not; exact hc
      exact ⟨x, by simp [hx], by rw [if_neg hc', h1], by rw [if_neg hc', h2]⟩
  · intro _ j
    simp only [Ext.add]
    by_cases hc : hi j > e.hi j ∨ e.n = 0
    · exact ⟨(id, lo, hi), by simp, by rw [if_pos hc], by rw [if_pos hc]⟩
    · push Not at hc
      obtain ⟨x, hx, h1, h2⟩ := h.hi (fun h' => hc.2 (hn.mpr h')) j
      have hc' : ¬ (hi j > e.hi j ∨ e.n = 0) := by push Not; exact hc
      exact ⟨x, by simp [hx], by rw [if_neg hc', h1], by rw [if_neg hc', h2]⟩

/-- The box of a sphere. -/
def boxS (x : ℕ × Body × ℝ) : ℕ × V3 × V3 := (x.1, x.2.1.pos - (fun _ => x.2.2), x.2.1.pos + fun _ => x.2.2)

theorem fold_tight (L : List (ℕ × Body × ℝ)) (d : Dims) (M : List (ℕ × V3 × V3)) (h : Tight d.ext M) :
    Tight (L.foldl addS d).ext (M ++ L.map boxS) := by
  induction L generalizing d M with
  | nil => simpa using h
  | cons x L ih =>
    have := ih (addS d x) (M ++ [boxS x]) (tight_add h _ _ _)
    simpa using this

theorem fold_sums (L : List (ℕ × Body × ℝ)) (d : Dims) :
    (L.foldl addS d).volume = d.volume + (L.map fun x => 4 / 3 * Real.pi * x.2.2 ^ 3).sum ∧
    (L.foldl addS d).mass = d.mass + (L.map fun x => x.2.1.mass).sum := by
  induction L generalizing d with
  | nil => simp
  | cons x L ih =>
    obtain ⟨h1, h2⟩ := ih (addS d x)
    simp only [List.foldl_cons, List.map_cons, List.sum_cons]
    rw [h1, h2]
    simp only [addS]
    constructor <;> ring

/-- Boxes of the same things are the same. -/
theorem tight_unique {e e' : Ext} {L L' : List (ℕ × V3 × V3)} (h : Tight e L) (h' : Tight e' L') (hL : L ≠ []) (hm : ∀ x, x ∈ L ↔ x ∈ L') :
    e.lo = e'.lo ∧ e.hi = e'.hi := by
  have hL' : L' ≠ [] := by
    obtain ⟨x, hx⟩ := List.exists_mem_of_ne_nil _ hL
    exact List.ne_nil_of_mem ((hm x).mp hx)
  constructor
  · funext j
    obtain ⟨x, hx, -, ex⟩ := h.lo hL j
    obtain ⟨y, hy, -, ey⟩ := h'.lo hL' j
    have h1 := (h.inside y ((hm y).mpr hy) j).1
    have h2 := (h'.inside x ((hm x).mp hx) j).1
    linarith
  · funext j
    obtain ⟨x, hx, -, ex⟩ := h.hi hL j
    obtain ⟨y, hy, -, ey⟩ := h'.hi hL' j
    have h1 := (h.inside y ((hm y).mpr hy) j).2
    have h2 := (h'.inside x ((hm x).mp hx) j).2
    linarith

theorem sphereDims_ids (sc : Scene) (ids : List ℤ) (mask : ℤ) (hne : ids ≠ []) : sphereDims sc ids mask = sphereLoop sc mask ⟨Ext.zero, 0, 0⟩ ids := by
  unfold sphereDims chosen
  have : ¬ ids.length < 1 := by
    have := List.length_pos_iff.mpr hne; omega
  rw [if_neg this]; rfl

/-! ## Changing -/

theorem slot_lt {n : ℕ} {i : ℤ} {k : ℕ} (h : slot n i = some k) : k < n := by
  unfold slot at h
  split_ifs at h <;> simp only [Option.some.injEq] at h <;> omega

theorem sphereAt_some {sc : Scene} {mask : ℤ} {i : ℤ} {x : ℕ × Body × ℝ} :
    sphereAt sc mask i = some x ↔ slot sc.length i = some x.1 ∧ sc[x.1]? = some (some x.2.1) ∧ x.2.1.radius = some x.2.2 ∧ fits mask x.2.1 := by
  obtain ⟨k, b, r⟩ := x
  constructor
  · intro h
    simp only [sphereAt, named, Option.bind_eq_some_iff, Option.map_eq_some_iff] at h
    obtain ⟨⟨k', b'⟩, ⟨k'', hk, b'', hb, e⟩, r', hr, h⟩ := h
    cases e
    split_ifs at h with hf
    cases h
    exact ⟨hk, Option.join_eq_some_iff.mp hb, hr, hf⟩
  · rintro ⟨hk, hb, hr, hf⟩
    simp only at hk hb hr hf
    simp [sphereAt, named, hk, hb, hr, hf]

theorem modifyLoop_copy (sc : Scene) (mask : ℤ) (f : Body → Body) (ids : List ℤ) (hv : ∀ i ∈ ids, slot sc.length i ≠ none) (out : List Body) :
    modifyLoop mask f true sc out ids = .ok (sc, out ++ (spheresOf sc mask ids).map fun x => f (duplicate x.2.1 x.2.2)) := by
  induction ids generalizing out with
  | nil => simp [modifyLoop, spheresOf]
  | cons i is ih =>
    have ih := ih fun j hj => hv j (List.mem_cons_of_mem _ hj)
    obtain ⟨k, hk⟩ := Option.ne_none_iff_exists'.mp (hv i List.mem_cons_self)
    unfold modifyLoop
    rw [idx_eq, hk]
    dsimp only
    cases hb : (sc[k]?).join with
    | none => simp only [ih]; simp [spheresOf, sphereAt, named, hk, hb]
    | some b =>
      dsimp only
      cases hr : b.radius with
      | none => simp only [ih]; simp [spheresOf, sphereAt, named, hk, hb, hr]
      | some r =>
        dsimp only
        rw [skips_eq]
        by_cases hf : fits mask b
        · simp only [hf, decide_true, Bool.not_true, Bool.false_eq_true, if_false, if_true, ih]
          simp [spheresOf, sphereAt, named, hk, hb, hr, hf]
        · simp only [hf, decide_false, Bool.not_false, if_true, ih]
          simp [spheresOf, sphereAt, named, hk, hb, hr, hf]

theorem modifyLoop_place (mask : ℤ) (f : Body → Body) (ids : List ℤ) (sc : Scene) (out : List Body) (hv : ∀ i ∈ ids, slot sc.length i ≠ none)
    (hn : (ids.map (slot sc.length)).Nodup) :
    ∃ sc', modifyLoop mask f false sc out ids = .ok (sc', out) ∧ sc'.length = sc.length ∧
      (∀ x ∈ spheresOf sc mask ids, sc'[x.1]? = some (some (f x.2.1))) ∧
      ∀ k, (∀ x ∈ spheresOf sc mask ids, x.1 ≠ k) → sc'[k]? = sc[k]? := by
  induction ids generalizing sc with
  | nil => exact ⟨sc, rfl, rfl, by simp [spheresOf], fun _ _ => rfl⟩
  | cons i is ih =>
    obtain ⟨k, hk⟩ := Option.ne_none_iff_exists'.mp (hv i List.mem_cons_self)
    have hvt : ∀ j ∈ is, slot sc.length j ≠ none := fun j hj => hv j (List.mem_cons_of_mem _ hj)
    obtain ⟨hni, hnt⟩ := List.nodup_cons.mp hn
    have keep : sphereAt sc mask i = none → ∃ sc', modifyLoop mask f false sc out is = .ok (sc', out) ∧ sc'.length = sc.length ∧
        (∀ x ∈ spheresOf sc mask (i :: is), sc'[x.1]? = some (some (f x.2.1))) ∧
        ∀ k, (∀ x ∈ spheresOf sc mask (i :: is), x.1 ≠ k) → sc'[k]? = sc[k]? := by
      intro h
      have e : spheresOf sc mask (i :: is) = spheresOf sc mask is := by simp [spheresOf, h]
      rw [e]
      exact ih sc hvt hnt
    unfold modifyLoop
    rw [idx_eq, hk]
    dsimp only
    cases hb : (sc[k]?).join with
    | none => exact keep (by simp [sphereAt, named, hk, hb])
    | some b =>
      dsimp only
      cases hr : b.radius with
      | none => exact keep (by simp [sphereAt, named, hk, hb, hr])
      | some r =>
        dsimp only
        rw [skips_eq]
        by_cases hf : fits mask b
        · simp only [hf, decide_true, Bool.not_true, Bool.false_eq_true, if_false]
          have hkl := slot_lt hk
          have e : spheresOf sc mask (i :: is) = (k, b, r) :: spheresOf sc mask is := by simp [spheresOf, sphereAt, named, hk, hb, hr, hf]
          have e2 : spheresOf (sc.set k (some (f b))) mask is = spheresOf sc mask is := by
            unfold spheresOf
            apply List.filterMap_congr
            intro j hj
            obtain ⟨k', hk'⟩ := Option.ne_none_iff_exists'.mp (hvt j hj)
            have hkk : k ≠ k' := fun h => hni (by rw [hk, h, ← hk']; exact List.mem_map_of_mem hj)
            simp [sphereAt, named, hk', List.getElem?_set_ne hkk]
          have hmem : ∀ x ∈ spheresOf sc mask is, x.1 ≠ k := by
            intro x hx h
            obtain ⟨j, hj, hjx⟩ := List.mem_filterMap.mp hx
            have := (sphereAt_some.mp hjx).1
            exact hni (by rw [hk, ← h, ← this]; exact List.mem_map_of_mem hj)
          obtain ⟨sc', h1, h2, h3, h4⟩ := ih (sc.set k (some (f b))) (by simpa using hvt) (by simpa using hnt)
          rw [e2] at h3 h4
          refine ⟨sc', h1, by simpa using h2, ?_, ?_⟩
          · rw [e]
            intro x hx
            rcases List.mem_cons.mp hx with rfl | hx
            · rw [h4 k hmem]; simp [hkl]
            · exact h3 x hx
          · rw [e]
            intro k' hk'
            rw [h4 k' fun x hx => hk' x (List.mem_cons_of_mem _ hx)]
            exact List.getElem?_set_ne (hk' (k, b, r) List.mem_cons_self)
        · simp only [hf, decide_false, Bool.not_false, if_true]
          exact keep (by simp [sphereAt, named, hk, hb, hr, hf])

end Verif.Handle
