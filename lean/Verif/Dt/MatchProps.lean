import Verif.Dt.Model
import Mathlib.Tactic.Linarith
import Mathlib.Tactic.FieldSimp

/-!
# Values for pairs of materials, and contact stiffness: C166, C167
-/
namespace Verif.Dt
open Verif.Mech
open scoped Classical

/-! ## Specification of MatchMaker -/

/-- The entry is for this pair of ids, in either order. -/
def IsFor (e : Int × Int × ℝ) (i j : Int) : Prop := (e.1 = i ∧ e.2.1 = j) ∨ (e.1 = j ∧ e.2.1 = i)

/-- The value documented for two values without match: `none` if it is not a number. -/
noncomputable def documented (algo : String) (val : Option ℝ) (a b : ℝ) : Option ℝ :=
  if algo = "val" then val else if algo = "zero" then some 0 else if algo = "avg" then some ((a + b) / 2)
  else if algo = "min" then some (if a ≤ b then a else b) else if algo = "max" then some (if a ≤ b then b else a)
  else if a + b = 0 then none else some (2 * a * b / (a + b))

/-- The algorithms there are. -/
def known : List String := ["val", "zero", "avg", "min", "max", "harmAvg"]

/-! ## The map -/

theorem key_eq (i j i' j' : Int) : ((min i j, max i j) : Int × Int) = (min i' j', max i' j') ↔ (i = i' ∧ j = j') ∨ (i = j' ∧ j = i') := by
  simp only [Prod.mk.injEq]
  omega

theorem insert_find (s : List ((Int × Int) × ℝ)) (k k' : Int × Int) (v : ℝ) :
    (insertMatch s k v).find? (fun e => e.1 = k') = ((s.find? (fun e => e.1 = k')).or (if k = k' then some (k, v) else none)) := by
  rw [insertMatch]
  split_ifs with h1 h2 h2
  · subst h2
    rw [List.any_eq_true] at h1
    obtain ⟨e, he, hk⟩ := h1
    have : (s.find? (fun e => e.1 = k)).isSome := by rw [List.find?_isSome]; exact ⟨e, he, hk⟩
    obtain ⟨x, hx⟩ := Option.isSome_iff_exists.mp this
    rw [hx]; rfl
  · simp
  · subst h2; rw [List.find?_append]; simp
  · rw [List.find?_append]; simp [h2]

theorem fold_find (l : List (Int × Int × ℝ)) (s : List ((Int × Int) × ℝ)) (i j : Int) :
    ((l.foldl (fun s e => insertMatch s (min e.1 e.2.1, max e.1 e.2.1) e.2.2) s).find? (fun e => e.1 = (min i j, max i j))).map Prod.snd =
      ((s.find? (fun e => e.1 = (min i j, max i j))).map Prod.snd).or ((l.find? (fun e => IsFor e i j)).map fun e => e.2.2) := by
  induction l generalizing s with
  | nil => simp
  | cons e t ih =>
    rw [List.foldl_cons, ih, insert_find, List.find?_cons]
    by_cases h : IsFor e i j
    · have : ((min e.1 e.2.1, max e.1 e.2.1) : Int × Int) = (min i j, max i j) := (key_eq ..).mpr (by simpa [IsFor] using h)
      rw [if_pos this]
      simp only [h, decide_true]
      cases s.find? (fun e => decide (e.1 = (min i j, max i j))) <;> simp
    · have : ¬ ((min e.1 e.2.1, max e.1 e.2.1) : Int × Int) = (min i j, max i j) := fun hc => h (by simpa [IsFor] using (key_eq ..).mp hc)
      rw [if_neg this]
      simp only [h, decide_false]
      cases s.find? (fun e => decide (e.1 = (min i j, max i j))) <;> simp

theorem call_eq (m : Matcher) (i j : Int) (v1 v2 : Option ℝ) : m.call i j v1 v2 =
    match (m.matchSet.find? (fun e => e.1 = (min i j, max i j))).map Prod.snd with
    | some x => .ok (some x)
    | none => if needsValues m.fb ∧ (v1 = none ∨ v2 = none) then .throws else .ok (fallback m.fb m.val v1 v2) := by
  rw [Matcher.call]
  cases m.matchSet.find? (fun e => decide (e.1 = (min i j, max i j))) <;> rfl

/-! ## C166 -/

/-- C166.  Asking for a pair of ids gives the value of the first entry for the pair, in whatever order the ids are; without entry it
gives what is documented for the algorithm, and raises an exception if values are needed and missing.  Unknown algorithms are refused. -/
theorem C166_match (algo : String) (val : Option ℝ) (ms : List (Int × Int × ℝ)) :
    (algo ∉ known → (Matcher.new algo val ms).postLoad = .throws) ∧
    (algo ∈ known → ∃ m, (Matcher.new algo val ms).postLoad = .ok m ∧ ∀ i j,
      (∀ e, ms.find? (fun e => IsFor e i j) = some e → ∀ v1 v2, m.call i j v1 v2 = .ok (some e.2.2)) ∧
      ((∀ e ∈ ms, ¬ IsFor e i j) →
        (∀ a b, m.call i j (some a) (some b) = .ok (documented algo val a b)) ∧
        (∀ v1 v2, (v1 = none ∨ v2 = none) → algo ∉ ["val", "zero"] → m.call i j v1 v2 = .throws) ∧
        (∀ v1 v2, algo = "val" → m.call i j v1 v2 = .ok val) ∧ (∀ v1 v2, algo = "zero" → m.call i j v1 v2 = .ok (some 0)))) := by
  constructor
  · intro h
    simp only [known, List.mem_cons, List.not_mem_nil, or_false, not_or] at h
    obtain ⟨h1, h2, h3, h4, h5, h6⟩ := h
    simp [Matcher.postLoad, Matcher.new, Algo.ofString, h1, h2, h3, h4, h5, h6]
  · intro h
    obtain ⟨fb, hfb⟩ : ∃ fb, Algo.ofString algo = some fb := by
      simp only [known, List.mem_cons, List.not_mem_nil, or_false] at h
      rcases h with rfl | rfl | rfl | rfl | rfl | rfl <;> exact ⟨_, rfl⟩
    refine ⟨{ algo := algo, val := val, matches_ := ms, fb := fb, matchSet := ms.foldl (fun s e => insertMatch s (min e.1 e.2.1, max e.1 e.2.1) e.2.2) [] }, ?_, ?_⟩
    · simp only [Matcher.postLoad, Matcher.new, hfb]
    · intro i j
      constructor
      · intro e he v1 v2
        rw [call_eq]
        simp only [fold_find, List.find?_nil, Option.map_none, Option.none_or, he, Option.map_some]
      · intro hno
        have hf : ms.find? (fun e => IsFor e i j) = none := by
          rw [List.find?_eq_none]
          intro e he
          simpa using hno e he
        refine ⟨?_, ?_, ?_, ?_⟩
        · intro a b
          rw [call_eq]
          simp only [fold_find, List.find?_nil, Option.map_none, Option.none_or, hf]
          rw [if_neg (by simp)]
          congr 1
          simp only [known, List.mem_cons, List.not_mem_nil, or_false] at h
          rcases h with rfl | rfl | rfl | rfl | rfl | rfl <;>
            simp [Algo.ofString] at hfb <;> subst hfb <;> simp [fallback, documented, min_def, max_def]
        · intro v1 v2 hv ha
          rw [call_eq]
          simp only [fold_find, List.find?_nil, Option.map_none, Option.none_or, hf]
          rw [if_pos]
          refine ⟨?_, hv⟩
          simp only [known, List.mem_cons, List.not_mem_nil, or_false] at h
          rcases h with rfl | rfl | rfl | rfl | rfl | rfl <;>
            simp [Algo.ofString] at hfb ha <;> subst hfb <;> rfl
        · rintro v1 v2 rfl
          simp [Algo.ofString] at hfb
          subst hfb
          rw [call_eq]
          simp only [fold_find, List.find?_nil, Option.map_none, Option.none_or, hf]
          rw [if_neg (by simp [needsValues])]
          rfl
        · rintro v1 v2 rfl
          simp [Algo.ofString] at hfb
          subst hfb
          rw [call_eq]
          simp only [fold_find, List.find?_nil, Option.map_none, Option.none_or, hf]
          rw [if_neg (by simp [needsValues])]
          rfl

/-- Two entries; one pair asked for in the other order, and a pair without entry. -/
example : ∃ m, (Matcher.new "max" none [(1, 2, 0.5), (2, 1, 0.7)]).postLoad = .ok m ∧ m.call 2 1 none none = .ok (some 0.5) ∧
    m.call 1 3 (some 4) (some 5) = .ok (some 5) ∧ m.call 1 3 none (some 5) = .throws := by
  obtain ⟨m, h, hm⟩ := (C166_match "max" none [(1, 2, 0.5), (2, 1, 0.7)]).2 (by simp [known])
  refine ⟨m, h, (hm 2 1).1 (1, 2, 0.5) (by simp [IsFor]) _ _, ?_, ?_⟩
  · rw [((hm 1 3).2 (by simp [IsFor])).1]
    simp [documented]
    norm_num
  · exact ((hm 1 3).2 (by simp [IsFor])).2.1 _ _ (Or.inl rfl) (by simp)

theorem fallback_comm (fb : Algo) (val v1 v2 : Option ℝ) : fallback fb val v1 v2 = fallback fb val v2 v1 := by
  cases fb <;> cases v1 <;> cases v2 <;> simp [fallback, add_comm, min_comm, max_comm]
  rename_i a b
  rw [show 2 * a * b = 2 * b * a by ring]

theorem call_comm (m : Matcher) (i j : Int) (v1 v2 : Option ℝ) : m.call i j v1 v2 = m.call j i v2 v1 := by
  rw [call_eq, call_eq, min_comm i j, max_comm i j, fallback_comm]
  simp only [or_comm (a := v1 = none)]

/-! ## C167 -/

/-- C167.  The properties of a contact do not depend on which of its bodies is the first. -/
theorem C167_symmetric (fa : Option Matcher) (m1 m2 : Mat) (r1 r2 : ℝ) : frictPhys fa m1 m2 r1 r2 = frictPhys fa m2 m1 r2 r1 := by
  have e1 : ∀ Ra Rb : ℝ, 2 * m1.young * Ra * m2.young * Rb = 2 * m2.young * Rb * m1.young * Ra := fun _ _ => by ring
  have e2 : ∀ Ra Rb : ℝ, 2 * m1.young * Ra * m1.poisson * m2.young * Rb * m2.poisson = 2 * m2.young * Rb * m2.poisson * m1.young * Ra * m1.poisson := fun _ _ => by ring
  have e3 : ∀ Ra Rb : ℝ, m1.young * Ra + m2.young * Rb = m2.young * Rb + m1.young * Ra := fun _ _ => add_comm _ _
  have e4 : ∀ Ra Rb : ℝ, m1.young * Ra * m1.poisson + m2.young * Rb * m2.poisson = m2.young * Rb * m2.poisson + m1.young * Ra * m1.poisson := fun _ _ => add_comm _ _
  cases fa with
  | none => simp only [frictPhys]; rw [e1, e2, e3, e4, min_comm]
  | some m => simp only [frictPhys]; rw [e1, e2, e3, e4, call_comm]

theorem harmonic {a b : ℝ} (ha : 0 < a) (hb : 0 < b) : min a b ≤ 2 * a * b / (a + b) ∧ 2 * a * b / (a + b) ≤ max a b := by
  have hs : 0 < a + b := by linarith
  rw [le_div_iff₀ hs, div_le_iff₀ hs]
  rcases le_total a b with h | h
  · rw [min_eq_left h, max_eq_right h]; constructor <;> nlinarith
  · rw [min_eq_right h, max_eq_left h]; constructor <;> nlinarith

/-- C167.  Materials with positive Young's moduli and Poisson's ratios give positive stiffnesses, between those of the two
bodies alone: modulus times radius, where a body without radius has the radius of the other.  Missing: Poisson's ratios of zero,
see `C167_violated`. -/
theorem C167_stiffness_partial {m1 m2 : Mat} {r1 r2 : ℝ} (hE1 : 0 < m1.young) (hE2 : 0 < m2.young) (hv1 : 0 < m1.poisson) (hv2 : 0 < m2.poisson)
    (hr : 0 < r1 ∨ 0 < r2) :
    ∃ p, frictPhys none m1 m2 r1 r2 = .ok (some p) ∧ p.tan = Real.tan (min m1.frictionAngle m2.frictionAngle) ∧
      ∃ R1 R2, 0 < R1 ∧ 0 < R2 ∧ (0 < r1 → R1 = r1) ∧ (0 < r2 → R2 = r2) ∧ (r1 ≤ 0 → R1 = r2) ∧ (r2 ≤ 0 → R2 = r1) ∧
      min (m1.young * R1) (m2.young * R2) ≤ p.kn ∧ p.kn ≤ max (m1.young * R1) (m2.young * R2) ∧ 0 < p.kn ∧
      min (m1.young * R1 * m1.poisson) (m2.young * R2 * m2.poisson) ≤ p.ks ∧ p.ks ≤ max (m1.young * R1 * m1.poisson) (m2.young * R2 * m2.poisson) ∧ 0 < p.ks := by
  set Ra := if r1 > 0 then r1 else r2 with hRa
  set Rb := if r2 > 0 then r2 else r1 with hRb
  have h1 : 0 < Ra := by
    rw [hRa]; split_ifs with h
    · exact h
    · rcases hr with h' | h'
      · exact absurd h' h
      · exact h'
  have h2 : 0 < Rb := by
    rw [hRb]; split_ifs with h
    · exact h
    · rcases hr with h' | h'
      · exact h'
      · exact absurd h' h
  have a1 : 0 < m1.young * Ra := mul_pos hE1 h1
  have a2 : 0 < m2.young * Rb := mul_pos hE2 h2
  have b1 := mul_pos a1 hv1
  have b2 := mul_pos a2 hv2
  refine ⟨⟨2 * m1.young * Ra * m2.young * Rb / (m1.young * Ra + m2.young * Rb),
    2 * m1.young * Ra * m1.poisson * m2.young * Rb * m2.poisson / (m1.young * Ra * m1.poisson + m2.young * Rb * m2.poisson), Real.tan (min m1.frictionAngle m2.frictionAngle)⟩, ?_, rfl, Ra, Rb, h1, h2, ?_, ?_, ?_, ?_, ?_⟩
  · simp only [frictPhys, quot]
    rw [← hRa, ← hRb, if_neg (by linarith), if_neg (by linarith)]
    simp
  · intro h; rw [hRa, if_pos h]
  · intro h; rw [hRb, if_pos h]
  · intro h; rw [hRa, if_neg (by linarith)]
  · intro h; rw [hRb, if_neg (by linarith)]
  · have k1 := harmonic a1 a2
    have k2 := harmonic b1 b2
    rw [show 2 * (m1.young * Ra) * (m2.young * Rb) = 2 * m1.young * Ra * m2.young * Rb by ring] at k1
    rw [show 2 * (m1.young * Ra * m1.poisson) * (m2.young * Rb * m2.poisson) = 2 * m1.young * Ra * m1.poisson * m2.young * Rb * m2.poisson by ring] at k2
    exact ⟨k1.1, k1.2, lt_of_lt_of_le (lt_min a1 a2) k1.1, k2.1, k2.2, lt_of_lt_of_le (lt_min b1 b2) k2.1⟩

/-- Two bodies of one material, a sphere and a facet. -/
example : ∃ p, frictPhys none ⟨0, 3, 0.5, 0.1⟩ ⟨0, 3, 0.5, 0.2⟩ 2 0 = .ok (some p) ∧ p.kn = 6 ∧ p.ks = 3 := by
  refine ⟨⟨6, 3, Real.tan 0.1⟩, ?_, rfl, rfl⟩
  have : min (0.1 : ℝ) 0.2 = 0.1 := min_eq_left (by norm_num)
  simp [frictPhys, quot, this]
  norm_num

/-- C167 is violated if both Poisson's ratios are zero: the shear stiffness is not a number. -/
theorem C167_violated (m1 m2 : Mat) (h1 : m1.poisson = 0) (h2 : m2.poisson = 0) (r1 r2 : ℝ) : frictPhys none m1 m2 r1 r2 = .ok none := by
  have : quot (2 * m1.young * (if r1 > 0 then r1 else r2) * m1.poisson * m2.young * (if r2 > 0 then r2 else r1) * m2.poisson)
      (m1.young * (if r1 > 0 then r1 else r2) * m1.poisson + m2.young * (if r2 > 0 then r2 else r1) * m2.poisson) = none := by
    rw [quot, if_pos]; rw [h1, h2]; ring
  simp only [frictPhys, this, Res.bind_ok]
  cases quot (2 * m1.young * (if r1 > 0 then r1 else r2) * m2.young * (if r2 > 0 then r2 else r1)) (m1.young * (if r1 > 0 then r1 else r2) + m2.young * (if r2 > 0 then r2 else r1)) <;> rfl

end Verif.Dt
