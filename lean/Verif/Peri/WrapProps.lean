import Verif.Peri.Model
import Mathlib.Data.Rat.Floor
import Mathlib.Tactic.Linarith
import Mathlib.Tactic.NormNum
import Mathlib.Tactic.Ring
import Mathlib.Tactic.FieldSimp
import Mathlib.Tactic.Push
import Mathlib.Tactic.FinCases
import Mathlib.Data.Fintype.Basic
import Mathlib.Algebra.Order.AbsoluteValue.Basic
/-!
# C31 (numbers) and C30: wrapping of coordinates and the periodic overlap test
-/
namespace Verif.Peri
open Verif Verif.Collide

variable {R : Type} [Field R] [LinearOrder R] [IsStrictOrderedRing R] [FloorRing R]

set_option linter.unusedSectionVars false

/-! ## Specification of wrapping -/

/-- `y` is the image of `x` in the interval from `lo` (inclusive) to `lo+sz` (exclusive), `k` periods below `x` -/
structure Wrapped (lo sz x y : R) (k : Int) : Prop where
  ge : lo ≤ y
  lt : y < lo + sz
  shift : x = y + k * sz

/-- the image in the interval is unique -/
theorem Wrapped.unique {lo sz x x' y y' : R} {k k' j : Int} (hs : 0 < sz) (h : Wrapped lo sz x y k) (h' : Wrapped lo sz x' y' k')
    (hx : x' = x + j * sz) : y' = y ∧ k' = k + j := by
  have e : y' - y = ((k + j - k' : Int) : R) * sz := by
    push_cast; have := h.shift; have := h'.shift; linarith
  have h1 := h.ge; have h2 := h.lt; have h3 := h'.ge; have h4 := h'.lt
  have a1 : ((k + j - k' : Int) : R) * sz < 1 * sz := by rw [← e]; linarith
  have a2 : (-1 : R) * sz < ((k + j - k' : Int) : R) * sz := by rw [← e]; linarith
  have b1 : ((k + j - k' : Int) : R) < 1 := lt_of_mul_lt_mul_right a1 hs.le
  have b2 : (-1 : R) < ((k + j - k' : Int) : R) := lt_of_mul_lt_mul_right a2 hs.le
  have c1 : k + j - k' < 1 := by exact_mod_cast b1
  have c2 : -1 < k + j - k' := by exact_mod_cast b2
  have c3 : k + j - k' = 0 := by omega
  rw [c3] at e
  simp only [Int.cast_zero, zero_mul] at e
  exact ⟨by linarith, by omega⟩

/-- a number that fits in a 32 bit `int` -/
def FitsInt (z : Int) : Prop := -2147483648 ≤ z ∧ z ≤ 2147483647

theorem toInt_ok {z : Int} (h : FitsInt z) : toInt z = .ok z := by
  unfold toInt; rw [if_pos]; constructor <;> have := h.1 <;> have := h.2 <;> omega

theorem toInt_ub {z : Int} (h : ¬ FitsInt z) : toInt z = .ub := by
  unfold toInt; rw [if_neg]; intro h'; apply h; unfold FitsInt; omega

theorem toInt_eq {z w : Int} (h : toInt z = .ok w) : w = z ∧ FitsInt z := by
  by_cases hz : FitsInt z
  · rw [toInt_ok hz] at h; cases h; exact ⟨rfl, hz⟩
  · rw [toInt_ub hz] at h; cases h

theorem wrapped_floor {sz : R} (hs : 0 < sz) (x lo : R) : Wrapped lo sz x (lo + ((x - lo) / sz - ⌊(x - lo) / sz⌋) * sz) ⌊(x - lo) / sz⌋ := by
  have h1 := Int.floor_le ((x - lo) / sz)
  have h2 := Int.lt_floor_add_one ((x - lo) / sz)
  have e : (x - lo) / sz * sz = x - lo := div_mul_cancel₀ _ hs.ne'
  refine ⟨?_, ?_, ?_⟩
  · have : 0 ≤ ((x - lo) / sz - ⌊(x - lo) / sz⌋) * sz := mul_nonneg (by linarith) hs.le
    linarith
  · have : ((x - lo) / sz - ⌊(x - lo) / sz⌋) * sz < 1 * sz := mul_lt_mul_of_pos_right (by linarith) hs
    linarith
  · rw [sub_mul, e]; ring

/-! ## C31: numbers -/

/-- C31: wrapping a number gives its image in the cell; numbers in the cell stay as they are; a shift by whole periods makes no
difference. -/
theorem C31_number {sz : R} (hs : 0 < sz) (x : R) :
    (∃ k, Wrapped 0 sz x (wrapNum x sz) k) ∧ (0 ≤ x → x < sz → wrapNum x sz = x) ∧
      ∀ k : Int, wrapNum (x + k * sz) sz = wrapNum x sz := by
  have key : ∀ x : R, Wrapped 0 sz x (wrapNum x sz) ⌊x / sz⌋ := by
    intro x
    have := wrapped_floor hs x 0
    simpa [wrapNum] using this
  refine ⟨⟨_, key x⟩, fun h0 h1 => ?_, fun k => ?_⟩
  · have hx : Wrapped 0 sz x x 0 := ⟨h0, by simpa using h1, by simp⟩
    exact (hx.unique (j := 0) hs (key x) (by simp)).1
  · exact ((key x).unique hs (key (x + k * sz)) rfl).1

/-- C31: the variant reporting the period gives the same image and the right number of periods, as long as that number is an
`int`; beyond that the conversion is undefined. -/
theorem C31_period {sz : R} (hs : 0 < sz) (x : R) :
    (∀ k, FitsInt k → Wrapped 0 sz x (wrapNum x sz) k → wrapNumP x sz = .ok (wrapNum x sz, k)) ∧
      (∀ k, ¬ FitsInt k → Wrapped 0 sz x (wrapNum x sz) k → wrapNumP x sz = .ub) := by
  have key : Wrapped 0 sz x (wrapNum x sz) ⌊x / sz⌋ := by
    simpa [wrapNum] using wrapped_floor hs x 0
  refine ⟨fun k hf hk => ?_, fun k hf hk => ?_⟩
  · have e := (key.unique (j := 0) hs hk (by simp)).2
    rw [add_zero] at e
    unfold wrapNumP; rw [toInt_ok (e ▸ hf), e]
    simp [wrapNum]
  · have e := (key.unique (j := 0) hs hk (by simp)).2
    rw [add_zero] at e
    unfold wrapNumP; rw [toInt_ub (e ▸ hf)]; rfl

/-- C31: the collider's own wrapping, into any interval. -/
theorem C31_collider {x0 x1 : R} (h : x0 < x1) (x : R) :
    (∀ y k, FitsInt k → Wrapped x0 (x1 - x0) x y k → cellWrap x x0 x1 = .ok (y, k)) ∧
      (∀ y k, ¬ FitsInt k → Wrapped x0 (x1 - x0) x y k → cellWrap x x0 x1 = .ub) ∧
      ∃ k, Wrapped x0 (x1 - x0) x (x0 + cellWrapRel x x0 x1) k := by
  have hs : 0 < x1 - x0 := by linarith
  have key := wrapped_floor hs x x0
  refine ⟨fun y k hf hk => ?_, fun y k hf hk => ?_, _, key⟩
  · obtain ⟨e1, e2⟩ := key.unique (j := 0) hs hk (by simp)
    rw [add_zero] at e2
    unfold cellWrap; rw [toInt_ok (e2 ▸ hf), e1, e2]; rfl
  · obtain ⟨e1, e2⟩ := key.unique (j := 0) hs hk (by simp)
    rw [add_zero] at e2
    unfold cellWrap; rw [toInt_ub (e2 ▸ hf)]; rfl

/-- C31, example: −7 in a cell of size 3 is 2, three periods up. -/
example : wrapNumP (-7 : ℚ) 3 = .ok (2, -3) ∧ cellWrap (-7 : ℚ) 0 3 = .ok (2, -3) ∧ wrapNumP (3 * 2 ^ 31 : ℚ) 3 = .ub := by
  have h3 : (0 : ℚ) < 3 := by norm_num
  have w : Wrapped (0 : ℚ) 3 (-7) 2 (-3) := ⟨by norm_num, by norm_num, by norm_num⟩
  refine ⟨?_, ?_, ?_⟩
  · obtain ⟨⟨k, hk⟩, _⟩ := C31_number h3 (-7)
    obtain ⟨e1, e2⟩ := w.unique (j := 0) h3 hk (by norm_num)
    have := (C31_period h3 (-7)).1 k (by subst e2; constructor <;> norm_num) hk
    rw [this, e1, e2]; rfl
  · exact (C31_collider (by norm_num) _).1 2 (-3) ⟨by norm_num, by norm_num⟩ (by simpa using w)
  · obtain ⟨⟨k, hk⟩, _⟩ := C31_number h3 (3 * 2 ^ 31)
    have w' : Wrapped (0 : ℚ) 3 (3 * 2 ^ 31) 0 (2 ^ 31) := ⟨by norm_num, by norm_num, by norm_num⟩
    obtain ⟨e1, e2⟩ := w'.unique (j := 0) h3 hk (by norm_num)
    exact (C31_period h3 _).2 k (by subst e2; rintro ⟨-, h⟩; revert h; norm_num) hk

/-! ## Specification of periodic overlap -/

/-- along one axis of period `dim`, the interval from `lo2` to `hi2` shifted by `m` periods meets the one from `lo1` to `hi1`,
or misses it by at most `tol` times the period -/
def NearAt (tol dim lo1 hi1 lo2 hi2 : R) (m : Int) : Prop :=
  lo2 + m * dim ≤ hi1 + tol * dim ∧ lo1 ≤ hi2 + m * dim + tol * dim

/-- the boxes of bodies `i` and `j` as the collider recorded them, in a cell of sizes `dim` -/
def Near (C : PCx R) (dim : Fin 3 → R) (i j : Nat) (m : Fin 3 → Int) : Prop :=
  ∀ a, NearAt C.tol (dim a) (C.mn i a) (C.mx i a) (C.mn j a) (C.mx j a) (m a)

/-- the collider's copy of the inverse cell sizes is current, the tolerance is not negative, both bodies are recorded, and the
bodies are fewer than 2³¹ periods apart -/
structure PeriOk (C : PCx R) (dim : Fin 3 → R) (i j : Nat) : Prop where
  pos : ∀ a, 0 < dim a
  inv : ∀ a, C.inv a = 1 / dim a
  tol : 0 ≤ C.tol
  ids : i < C.nmm ∧ j < C.nmm
  range : ∀ a, |C.mx j a - C.mx i a| < (2 ^ 31 - 2) * dim a

/-- the sizes the test accepts: the first box at most a period, the second at most half a period -/
structure SizeOk (C : PCx R) (dim : Fin 3 → R) (i j : Nat) : Prop where
  w1 : ∀ a, C.mn i a ≤ C.mx i a ∧ C.mx i a - C.mn i a ≤ dim a
  w2 : ∀ a, C.mn j a ≤ C.mx j a ∧ C.mx j a - C.mn j a ≤ dim a / 2

/-! ## One axis -/

theorem axis_cases (C : PCx R) (dim : Fin 3 → R) (i j : Nat) (h : PeriOk C dim i j) (hw : SizeOk C dim i j) (a : Fin 3) :
    (∃ m, overlapAxis C i j a = .ok (some m) ∧ NearAt C.tol (dim a) (C.mn i a) (C.mx i a) (C.mn j a) (C.mx j a) m) ∨
    (overlapAxis C i j a = .ok none ∧ ∀ m, ¬ NearAt C.tol (dim a) (C.mn i a) (C.mx i a) (C.mn j a) (C.mx j a) m) := by
  have hd := h.pos a
  have ht := h.tol
  obtain ⟨w10, w11⟩ := hw.w1 a
  obtain ⟨w20, w21⟩ := hw.w2 a
  have hr := abs_lt.mp (h.range a)
  unfold overlapAxis
  rw [h.inv a]
  -- normalised values
  obtain ⟨u, hu⟩ : ∃ u, u = (C.mn j a - C.mx i a) * (1 / dim a) := ⟨_, rfl⟩
  obtain ⟨v, hv⟩ : ∃ v, v = (C.mx j a - C.mx i a) * (1 / dim a) := ⟨_, rfl⟩
  obtain ⟨s, hs⟩ : ∃ s, s = (C.mn i a - C.mx i a) * (1 / dim a) + 1 := ⟨_, rfl⟩
  have eu : u * dim a = C.mn j a - C.mx i a := by rw [hu]; field_simp
  have ev : v * dim a = C.mx j a - C.mx i a := by rw [hv]; field_simp
  have es : (s - 1) * dim a = C.mn i a - C.mx i a := by rw [hs]; field_simp; ring
  have le_of : ∀ x y : R, x * dim a ≤ y * dim a → x ≤ y := fun x y hxy => le_of_mul_le_mul_right hxy hd
  have lt_of : ∀ x y : R, x * dim a < y * dim a → x < y := fun x y hxy => lt_of_mul_lt_mul_right hxy hd.le
  have mul_le : ∀ x y : R, x ≤ y → x * dim a ≤ y * dim a := fun x y hxy => mul_le_mul_of_nonneg_right hxy hd.le
  have huv : u ≤ v := le_of _ _ (by linarith)
  have hvu : v - u ≤ 1 / 2 := le_of _ _ (by rw [sub_mul]; linarith)
  have hs1 : s - 1 ≤ 0 := le_of _ _ (by linarith)
  have hs0 : -1 ≤ s - 1 := le_of _ _ (by linarith)
  have hv1 : v < 2 ^ 31 - 2 := lt_of _ _ (by linarith)
  have hv2 : -(2 ^ 31 - 2) < v := lt_of _ _ (by linarith)
  simp only [← hu, ← hv, ← hs]
  rw [if_neg (by rintro (h1 | h1) <;> linarith)]
  have f1 := Int.floor_le v
  have f2 := Int.lt_floor_add_one v
  have g1 : ⌊v⌋ < 2 ^ 31 - 2 := by
    have : (⌊v⌋ : R) < ((2 ^ 31 - 2 : Int) : R) := by push_cast; linarith
    exact_mod_cast this
  have g2 : -(2 ^ 31 - 2) - 1 < ⌊v⌋ := by
    have : ((-(2 ^ 31 - 2) - 1 : Int) : R) < (⌊v⌋ : R) := by push_cast; linarith
    exact_mod_cast this
  rw [toInt_ok ⟨by omega, by omega⟩]
  simp only [Res.bind_ok]
  -- nearness in normalised values
  have near_iff : ∀ m : Int, NearAt C.tol (dim a) (C.mn i a) (C.mx i a) (C.mn j a) (C.mx j a) m ↔
      u + m ≤ C.tol ∧ s - 1 ≤ v + m + C.tol := by
    intro m
    constructor
    · rintro ⟨h1, h2⟩
      exact ⟨le_of _ _ (by rw [add_mul]; linarith), le_of _ _ (by rw [add_mul, add_mul]; linarith)⟩
    · rintro ⟨h1, h2⟩
      have h1 := mul_le _ _ h1
      have h2 := mul_le _ _ h2
      rw [add_mul] at h1
      rw [add_mul, add_mul] at h2
      exact ⟨by linarith, by linarith⟩
  by_cases c1 : u - ⌊v⌋ ≤ C.tol
  · left
    refine ⟨-⌊v⌋, ?_, (near_iff _).mpr ⟨?_, ?_⟩⟩
    · rw [if_pos c1, toInt_ok ⟨by omega, by omega⟩]; rfl
    · push_cast; linarith
    · push_cast; linarith
  · rw [if_neg c1]
    by_cases c2 : v - ⌊v⌋ + C.tol ≥ s
    · left
      refine ⟨-⌊v⌋ - 1, ?_, (near_iff _).mpr ⟨?_, ?_⟩⟩
      · rw [if_pos c2, toInt_ok ⟨by omega, by omega⟩]; rfl
      · push_cast; linarith
      · push_cast; linarith
    · right
      refine ⟨if_neg c2, fun m hm => ?_⟩
      obtain ⟨k1, k2⟩ := (near_iff m).mp hm
      push Not at c1 c2
      by_cases hm' : -⌊v⌋ ≤ m
      · have : ((-⌊v⌋ : Int) : R) ≤ m := by exact_mod_cast hm'
        push_cast at this; linarith
      · have : (m : R) ≤ ((-⌊v⌋ - 1 : Int) : R) := by exact_mod_cast (by omega : m ≤ -⌊v⌋ - 1)
        push_cast at this; linarith

/-- one axis with boxes of any size: an exception exactly if a box is too large, unless that is allowed -/
theorem axis_big (C : PCx R) (dim : Fin 3 → R) (i j : Nat) (h : PeriOk C dim i j) (a : Fin 3)
    (hb : dim a / 2 < C.mx j a - C.mn j a ∨ dim a < C.mx i a - C.mn i a) :
    overlapAxis C i j a = if C.big then .ok (some 0) else .throws := by
  have hd := h.pos a
  unfold overlapAxis
  rw [h.inv a]
  dsimp only
  rw [if_pos]
  rcases hb with hb | hb
  · left
    rw [← sub_mul, mul_one_div, lt_div_iff₀ hd]; linarith
  · right
    rw [mul_one_div]
    have : (C.mn i a - C.mx i a) / dim a < -1 := by rw [div_lt_iff₀ hd]; linarith
    linarith

/-! ## C30 -/

/-- C30: boxes of the accepted sizes are reported as overlapping exactly if some shift of the second by whole periods brings it
to the first, and the shift reported does so. -/
theorem C30_exact (C : PCx R) (dim : Fin 3 → R) (i j : Nat) (h : PeriOk C dim i j) (hw : SizeOk C dim i j) :
    (∃ d, overlapPeri C i j = .ok (some d) ∧ Near C dim i j d) ∨
    (overlapPeri C i j = .ok none ∧ ∀ m, ¬ Near C dim i j m) := by
  unfold overlapPeri
  rw [if_pos h.ids]
  rcases axis_cases C dim i j h hw 0 with ⟨x, e0, n0⟩ | ⟨e0, n0⟩
  · rcases axis_cases C dim i j h hw 1 with ⟨y, e1, n1⟩ | ⟨e1, n1⟩
    · rcases axis_cases C dim i j h hw 2 with ⟨z, e2, n2⟩ | ⟨e2, n2⟩
      · left
        refine ⟨_, by rw [e0]; simp only [Res.bind_ok]; rw [e1]; simp only [Res.bind_ok]; rw [e2]; rfl, fun a => ?_⟩
        fin_cases a
        · exact n0
        · exact n1
        · exact n2
      · right
        exact ⟨by rw [e0]; simp only [Res.bind_ok]; rw [e1]; simp only [Res.bind_ok]; rw [e2]; rfl, fun m hm => n2 _ (hm 2)⟩
    · right
      exact ⟨by rw [e0]; simp only [Res.bind_ok]; rw [e1]; rfl, fun m hm => n1 _ (hm 1)⟩
  · right
    exact ⟨by rw [e0]; rfl, fun m hm => n0 _ (hm 0)⟩

/-- C30: a box above the accepted size raises an exception, unless `allowBiggerThanPeriod` is set; then that axis counts as
overlapping without a shift. -/
theorem C30_too_large (C : PCx R) (dim : Fin 3 → R) (i j : Nat) (h : PeriOk C dim i j)
    (hb : dim 0 / 2 < C.mx j 0 - C.mn j 0 ∨ dim 0 < C.mx i 0 - C.mn i 0) :
    (C.big = false → overlapPeri C i j = .throws) ∧ (C.big = true → ∀ d, overlapPeri C i j = .ok (some d) → d 0 = 0) := by
  have e := axis_big C dim i j h 0 hb
  constructor
  · intro hf
    unfold overlapPeri; rw [if_pos h.ids, e, hf]; rfl
  · intro ht d hd
    unfold overlapPeri at hd
    rw [if_pos h.ids, e, ht] at hd
    simp only [if_true, Res.bind_ok] at hd
    cases e1 : overlapAxis C i j 1 with
    | ok r => cases r with
      | none => rw [e1] at hd; cases hd
      | some y =>
        rw [e1] at hd
        simp only [Res.bind_ok] at hd
        cases e2 : overlapAxis C i j 2 with
        | ok r => cases r with
          | none => rw [e2] at hd; cases hd
          | some z => rw [e2] at hd; simp only [Res.bind_ok] at hd; cases hd; rfl
        | throws => rw [e2] at hd; cases hd
        | ub => rw [e2] at hd; cases hd
    | throws => rw [e1] at hd; cases hd
    | ub => rw [e1] at hd; cases hd

theorem PeriOk.swap {C : PCx R} {dim : Fin 3 → R} {i j : Nat} (h : PeriOk C dim i j) : PeriOk C dim j i :=
  ⟨h.pos, h.inv, h.tol, ⟨h.ids.2, h.ids.1⟩, fun a => by rw [abs_sub_comm]; exact h.range a⟩

theorem NearAt.swap {tol dim lo1 hi1 lo2 hi2 : R} {m : Int} (h : NearAt tol dim lo1 hi1 lo2 hi2 m) :
    NearAt tol dim lo2 hi2 lo1 hi1 (-m) := by
  obtain ⟨h1, h2⟩ := h
  constructor
  · push_cast; linarith
  · push_cast; linarith

theorem NearAt.unique {tol dim lo1 hi1 lo2 hi2 : R} {m m' : Int} (hd : 0 < dim) (hw : (hi1 - lo1) + (hi2 - lo2) < (1 - 2 * tol) * dim)
    (h : NearAt tol dim lo1 hi1 lo2 hi2 m) (h' : NearAt tol dim lo1 hi1 lo2 hi2 m') : m = m' := by
  have key : ∀ {m m' : Int}, NearAt tol dim lo1 hi1 lo2 hi2 m → NearAt tol dim lo1 hi1 lo2 hi2 m' → m ≤ m' := by
    intro m m' h h'
    have h1 := h.1
    have h2 := h'.2
    have h3 : ((m - m' : Int) : R) * dim < 1 * dim := by push_cast; linarith
    have h4 := lt_of_mul_lt_mul_right h3 hd.le
    have h5 : m - m' < 1 := by exact_mod_cast h4
    omega
  exact le_antisymm (key h h') (key h' h)

/-- C30: with exchanged bodies the answer is the opposite shift, provided both boxes are at most half a period and together
leave more than twice the tolerance of the period free. -/
theorem C30_exchange_partial (C : PCx R) (dim : Fin 3 → R) (i j : Nat) (h : PeriOk C dim i j) (hw : SizeOk C dim i j)
    (hw' : ∀ a, C.mx i a - C.mn i a ≤ dim a / 2)
    (hs : ∀ a, (C.mx i a - C.mn i a) + (C.mx j a - C.mn j a) < (1 - 2 * C.tol) * dim a) (d : Fin 3 → Int) :
    overlapPeri C i j = .ok (some d) ↔ overlapPeri C j i = .ok (some (fun a => -d a)) := by
  have hwr : SizeOk C dim j i :=
    ⟨fun a => ⟨(hw.w2 a).1, by have := (hw.w2 a).2; have := h.pos a; linarith⟩, fun a => ⟨(hw.w1 a).1, hw' a⟩⟩
  have go : ∀ i j, PeriOk C dim i j → SizeOk C dim i j → SizeOk C dim j i →
      (∀ a, (C.mx i a - C.mn i a) + (C.mx j a - C.mn j a) < (1 - 2 * C.tol) * dim a) → ∀ d,
      overlapPeri C i j = .ok (some d) → overlapPeri C j i = .ok (some (fun a => -d a)) := by
    intro i j h hw hwr hs d hd
    rcases C30_exact C dim i j h hw with ⟨d', e, n⟩ | ⟨e, _⟩
    · rw [hd] at e; cases e
      rcases C30_exact C dim j i h.swap hwr with ⟨d', e', n'⟩ | ⟨_, n'⟩
      · rw [e']
        congr 2
        funext a
        exact (n' a).unique (h.pos a) (by have := hs a; linarith) (n a).swap
      · exact absurd (fun a => (n a).swap) (n' _)
    · rw [hd] at e; cases e
  constructor
  · exact go i j h hw hwr hs d
  · intro hd
    have := go j i h.swap hwr hw (fun a => by have := hs a; linarith) _ hd
    simpa using this

/-! ## Concrete boxes -/

/-- cubes from `lo i` to `hi i` in a cell of size 10, with the default tolerance -/
def exCx (lo hi : Nat → ℚ) : PCx ℚ :=
  ⟨⟨2, fun _ => none, 0, 0⟩, fun i _ => lo i, fun i _ => hi i, 2, fun _ => 1 / 10, 1 / 10 ^ 7, false⟩

theorem exCx_ok (lo hi : Nat → ℚ) (h : |hi 1 - hi 0| < 1000) : PeriOk (exCx lo hi) (fun _ => 10) 0 1 :=
  ⟨fun _ => by norm_num, fun _ => rfl, by norm_num [exCx], by constructor <;> norm_num [exCx],
    fun _ => lt_trans h (by norm_num)⟩

/-- C30, example: cubes 1–3 and 32–34 in a cell of size 10 overlap with a shift by −3 periods, seen from the second by 3. -/
example : overlapPeri (exCx (fun i => if i = 0 then 1 else 32) (fun i => if i = 0 then 3 else 34)) 0 1 = .ok (some fun _ => -3) ∧
    overlapPeri (exCx (fun i => if i = 0 then 1 else 32) (fun i => if i = 0 then 3 else 34)) 1 0 = .ok (some fun _ => 3) := by
  have h := exCx_ok (fun i => if i = 0 then 1 else 32) (fun i => if i = 0 then 3 else 34) (by norm_num)
  have hw : SizeOk (exCx (fun i => if i = 0 then 1 else 32) (fun i => if i = 0 then 3 else 34)) (fun _ => 10) 0 1 :=
    ⟨fun _ => by constructor <;> norm_num [exCx], fun _ => by constructor <;> norm_num [exCx]⟩
  have near : Near (exCx (fun i => if i = 0 then 1 else 32) (fun i => if i = 0 then 3 else 34)) (fun _ => 10) 0 1 (fun _ => -3) :=
    fun _ => by constructor <;> norm_num [exCx]
  have e : overlapPeri (exCx (fun i => if i = 0 then 1 else 32) (fun i => if i = 0 then 3 else 34)) 0 1 = .ok (some fun _ => -3) := by
    rcases C30_exact _ _ 0 1 h hw with ⟨d, e, n⟩ | ⟨_, n⟩
    · rw [e]; congr 2; funext a
      exact (n a).unique (by norm_num) (by norm_num [exCx]) (near a)
    · exact absurd near (n _)
  refine ⟨e, ?_⟩
  have := (C30_exchange_partial _ _ 0 1 h hw (fun a => by norm_num [exCx]) (fun a => by norm_num [exCx]) _).mp e
  simpa using this

/-- C30 is violated in general: cubes 0–5 and 5–10 in a cell of size 10, each of the documented maximal size, touch on both
sides; the two orders report shifts that are not opposite.  And a body of 7 tenths of the cell is accepted as the first of a
pair but raises an exception as the second. -/
theorem C30_exchange_violated :
    (∃ C : PCx ℚ, PeriOk C (fun _ => 10) 0 1 ∧ SizeOk C (fun _ => 10) 0 1 ∧ SizeOk C (fun _ => 10) 1 0 ∧
      ∃ d d', overlapPeri C 0 1 = .ok (some d) ∧ overlapPeri C 1 0 = .ok (some d') ∧ d' ≠ fun a => -d a) ∧
    (∃ C : PCx ℚ, PeriOk C (fun _ => 10) 0 1 ∧ (∃ r, overlapPeri C 0 1 = .ok r) ∧ overlapPeri C 1 0 = .throws) := by
  constructor
  · have h := exCx_ok (fun i => if i = 0 then 0 else 5) (fun i => if i = 0 then 5 else 10) (by norm_num)
    refine ⟨_, h, ⟨fun _ => by constructor <;> norm_num [exCx], fun _ => by constructor <;> norm_num [exCx]⟩,
      ⟨fun _ => by constructor <;> norm_num [exCx], fun _ => by constructor <;> norm_num [exCx]⟩, fun _ => 0, fun _ => 1, ?_, ?_, ?_⟩
    · have f : ⌊(1 / 2 : ℚ)⌋ = 0 := by rw [Int.floor_eq_iff]; norm_num
      have e : ∀ a, overlapAxis (exCx (fun i => if i = 0 then 0 else 5) (fun i => if i = 0 then 5 else 10)) 0 1 a = .ok (some 0) := by
        intro a
        unfold overlapAxis
        norm_num [exCx, f, toInt]
      unfold overlapPeri
      rw [if_pos h.ids, e 0]; simp only [Res.bind_ok]; rw [e 1]; simp only [Res.bind_ok]; rw [e 2]
      simp
    · have f : ⌊(-1 / 2 : ℚ)⌋ = -1 := by rw [Int.floor_eq_iff]; norm_num
      have e : ∀ a, overlapAxis (exCx (fun i => if i = 0 then 0 else 5) (fun i => if i = 0 then 5 else 10)) 1 0 a = .ok (some 1) := by
        intro a
        unfold overlapAxis
        norm_num [exCx, f, toInt]
      unfold overlapPeri
      rw [if_pos h.swap.ids, e 0]; simp only [Res.bind_ok]; rw [e 1]; simp only [Res.bind_ok]; rw [e 2]
      simp
    · intro hd
      have := congrFun hd 0
      norm_num at this
  · have h := exCx_ok (fun i => if i = 0 then 0 else 8) (fun i => if i = 0 then 7 else 9) (by norm_num)
    refine ⟨_, h, ?_, ?_⟩
    · have hw : SizeOk (exCx (fun i => if i = 0 then 0 else 8) (fun i => if i = 0 then 7 else 9)) (fun _ => 10) 0 1 :=
        ⟨fun _ => by constructor <;> norm_num [exCx], fun _ => by constructor <;> norm_num [exCx]⟩
      rcases C30_exact _ _ 0 1 h hw with ⟨d, e, n⟩ | ⟨e, n⟩
      · exact ⟨_, e⟩
      · exact ⟨_, e⟩
    · exact (C30_too_large _ _ 1 0 h.swap (Or.inl (by norm_num [exCx]))).1 rfl

end Verif.Peri
