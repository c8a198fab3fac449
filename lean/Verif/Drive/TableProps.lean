import Verif.Drive.Table
import Mathlib.Algebra.Order.Floor.Ring
import Mathlib.Data.Rat.Floor
import Mathlib.Tactic.Linarith
import Mathlib.Tactic.LinearCombination
import Mathlib.Data.List.Forall2
import Mathlib.Tactic.FieldSimp
import Mathlib.Tactic.Push
import Mathlib.Tactic.NormNum

/-!
# C117: quantities given as a table over time
-/
namespace Verif.Drive

variable {K : Type} [Field K] [LinearOrder K] [IsStrictOrderedRing K]

/-- Specification: the point `(t, y)` is on the curve given by the table, i.e. before the first
time with the first value, after the last time with the last value, or on the segment between two
neighbouring points. -/
def OnCurve (tt vs : List K) (t y : K) : Prop :=
  (∃ a, tt.head? = some a ∧ t ≤ a ∧ vs.head? = some y) ∨
  (∃ b, tt.getLast? = some b ∧ b ≤ t ∧ vs.getLast? = some y) ∨
  ∃ k t0 t1 v0 v1, tt[k]? = some t0 ∧ tt[k + 1]? = some t1 ∧ vs[k]? = some v0 ∧ vs[k + 1]? = some v1 ∧
    t0 ≤ t ∧ t ≤ t1 ∧ t0 < t1 ∧ (y - v0) * (t1 - t0) = (v1 - v0) * (t - t0)

/-! ## The search -/

theorem at_ok {v : List K} {i : Nat} {x : K} (h : v[i]? = some x) : at' v i = .ok x := by simp [at', h]

theorem search_right {t last : K} {tt : List K} (hl : tt[tt.length - 1]? = some last) (h : t < last) (n pos : Nat)
    (hp : pos + 1 < tt.length) (hn : tt.length ≤ n + pos + 1) (a : K) (ha : tt[pos]? = some a) (hat : a ≤ t) :
    ∃ p a' b', search (some t) tt n pos = .ok p ∧ tt[p]? = some a' ∧ tt[p + 1]? = some b' ∧ a' ≤ t ∧ t ≤ b' ∧
      (p = pos ∨ a' < t) := by
  induction n generalizing pos a with
  | zero => omega
  | succ n ih =>
    obtain ⟨b, hb⟩ : ∃ b, tt[pos + 1]? = some b := ⟨_, List.getElem?_eq_getElem hp⟩
    by_cases hbt : b < t
    · have hlt : pos + 2 < tt.length := by
        by_contra hc
        have : pos + 1 = tt.length - 1 := by omega
        rw [this, hl] at hb
        cases hb
        exact absurd hbt (not_lt.mpr h.le)
      obtain ⟨p, a', b', h1, h2, h3, h4, h5, h6⟩ := ih (pos + 1) (by omega) (by omega) b hb hbt.le
      refine ⟨p, a', b', ?_, h2, h3, h4, h5, Or.inr ?_⟩
      · simp [search, at_ok ha, at_ok hb, not_lt.mpr hat, hbt, h1]
      · rcases h6 with rfl | h6
        · rw [hb] at h2; cases h2; exact hbt
        · exact h6
    · exact ⟨pos, a, b, by simp [search, at_ok ha, at_ok hb, not_lt.mpr hat, hbt], ha, hb, hat, not_lt.mp hbt,
        Or.inl rfl⟩

theorem search_left {t first : K} {tt : List K} (hf : tt[0]? = some first) (h : first < t) (n pos : Nat)
    (hp : pos + 1 < tt.length) (hn : pos < n) (a : K) (ha : tt[pos]? = some a) (hat : t < a) :
    ∃ p a' b', search (some t) tt n pos = .ok p ∧ tt[p]? = some a' ∧ tt[p + 1]? = some b' ∧ a' ≤ t ∧ t < b' := by
  induction n generalizing pos a with
  | zero => omega
  | succ n ih =>
    cases pos with
    | zero => rw [hf] at ha; cases ha; exact absurd hat (not_lt.mpr h.le)
    | succ pos =>
      have e : search (some t) tt (n + 1) (pos + 1) = search (some t) tt n pos := by
        simp [search, at_ok ha, hat]
      rw [e]
      obtain ⟨c, hc⟩ : ∃ c, tt[pos]? = some c := ⟨_, List.getElem?_eq_getElem (by omega)⟩
      by_cases hct : t < c
      · exact ih pos (by omega) (by omega) c hc hct
      · cases n with
        | zero => omega
        | succ n =>
          refine ⟨pos, c, a, ?_, hc, ha, not_lt.mp hct, hat⟩
          simp [search, at_ok hc, at_ok ha, hct, not_lt.mpr hat.le]

/-- The search ends for every table, sorted or not, in an interval containing the time. -/
theorem search_ok {t first last : K} {tt : List K} (hf : tt[0]? = some first)
    (hl : tt[tt.length - 1]? = some last) (h1 : first < t) (h2 : t < last) (pos : Nat) (hp : pos + 1 < tt.length) :
    ∃ p a b, search (some t) tt (tt.length + 1) pos = .ok p ∧ tt[p]? = some a ∧ tt[p + 1]? = some b ∧
      a ≤ t ∧ t ≤ b ∧ (p = pos ∨ a < t ∨ t < b) := by
  obtain ⟨a, ha⟩ : ∃ a, tt[pos]? = some a := ⟨_, List.getElem?_eq_getElem (by omega)⟩
  by_cases hat : t < a
  · obtain ⟨p, a', b', h1, h2, h3, h4, h5⟩ := search_left hf h1 (tt.length + 1) pos hp (by omega) a ha hat
    exact ⟨p, a', b', h1, h2, h3, h4, h5.le, Or.inr (Or.inr h5)⟩
  · obtain ⟨p, a', b', h1, h2, h3, h4, h5, h6⟩ :=
      search_right hl h2 (tt.length + 1) pos hp (by omega) a ha (not_lt.mp hat)
    exact ⟨p, a', b', h1, h2, h3, h4, h5, h6.imp_right Or.inl⟩

/-- One reading of a table in increasing order, possibly with equal neighbours. -/
theorem interp_ok (tt vs : List K) (hs : tt.Pairwise (· ≤ ·)) (hlen : vs.length = tt.length) (hne : tt ≠ [])
    (t : K) (pos : Nat) :
    ∃ y p, interp (some t) tt vs pos = .ok (y, p) ∧
      ((∃ z, y = some z ∧ OnCurve tt vs t z ∧
          (p = 0 ∨ p = sizeMinus2 tt.length ∨ ∃ a b, tt[p]? = some a ∧ tt[p + 1]? = some b ∧ a < b)) ∨
        (p = min pos (sizeMinus2 tt.length) ∧ ∃ first last, tt[0]? = some first ∧
          tt[tt.length - 1]? = some last ∧ first < t ∧ t < last ∧ tt[p]? = some t ∧ tt[p + 1]? = some t)) := by
  have hpos : 0 < tt.length := List.length_pos_of_ne_nil hne
  obtain ⟨first, hf⟩ : ∃ a, tt[0]? = some a := ⟨_, List.getElem?_eq_getElem hpos⟩
  obtain ⟨last, hl⟩ : ∃ a, tt[tt.length - 1]? = some a := ⟨_, List.getElem?_eq_getElem (by omega)⟩
  obtain ⟨v0, hv0⟩ : ∃ a, vs[0]? = some a := ⟨_, List.getElem?_eq_getElem (by omega)⟩
  obtain ⟨vl, hvl⟩ : ∃ a, vs[vs.length - 1]? = some a := ⟨_, List.getElem?_eq_getElem (by omega)⟩
  by_cases c1 : t ≤ first
  · refine ⟨some v0, 0, by simp [interp, at_ok hf, c1, at_ok hv0], Or.inl ⟨v0, rfl, Or.inl ⟨first, ?_, c1, ?_⟩, Or.inl rfl⟩⟩
    · rw [List.head?_eq_getElem?, hf]
    · rw [List.head?_eq_getElem?, hv0]
  by_cases c2 : last ≤ t
  · refine ⟨some vl, _, by simp [interp, at_ok hf, c1, at_ok hl, c2, at_ok hvl],
      Or.inl ⟨vl, rfl, Or.inr (Or.inl ⟨last, ?_, c2, ?_⟩), Or.inr (Or.inl rfl)⟩⟩
    · rw [List.getLast?_eq_getElem?, hl]
    · rw [List.getLast?_eq_getElem?, hvl]
  rw [not_le] at c1 c2
  have h2 : 2 ≤ tt.length := by
    by_contra hc
    have : tt.length - 1 = 0 := by omega
    rw [this, hf] at hl
    cases hl
    exact absurd (c1.trans c2) (lt_irrefl _)
  have hm : min pos (sizeMinus2 tt.length) + 1 < tt.length := by
    simp only [sizeMinus2, if_pos h2]; omega
  obtain ⟨p, a, b, s1, s2, s3, s4, s5, s6⟩ := search_ok hf hl c1 c2 _ hm
  obtain ⟨hpl, _⟩ := List.getElem?_eq_some_iff.mp s3
  obtain ⟨w0, hw0⟩ : ∃ a, vs[p]? = some a := ⟨_, List.getElem?_eq_getElem (by omega)⟩
  obtain ⟨w1, hw1⟩ : ∃ a, vs[p + 1]? = some a := ⟨_, List.getElem?_eq_getElem (by omega)⟩
  have e : interp (some t) tt vs pos = .ok (between (some t) a b w0 w1, p) := by
    simp [interp, at_ok hf, not_le.mpr c1, at_ok hl, not_le.mpr c2, s1, at_ok s2, at_ok s3, at_ok hw0, at_ok hw1]
  refine ⟨_, p, e, ?_⟩
  by_cases hab : a < b
  · refine Or.inl ⟨w0 + (w1 - w0) * ((t - a) / (b - a)), ?_, Or.inr (Or.inr ⟨p, a, b, w0, w1, s2, s3, hw0, hw1, s4, s5, hab, ?_⟩),
      Or.inr (Or.inr ⟨a, b, s2, s3, hab⟩)⟩
    · simp [between, sub_eq_zero, hab.ne']
    · have : b - a ≠ 0 := sub_ne_zero.mpr hab.ne'
      field_simp
      ring
  · have hba : a = b := by
      refine le_antisymm (s4.trans s5) (not_lt.mp hab)
    have hta : t = a := le_antisymm (hba ▸ s5) s4
    rcases s6 with s6 | s6
    · exact Or.inr ⟨s6, first, last, hf, hl, c1, c2, hta ▸ s2, by rw [s3, ← hba, hta]⟩
    · rcases s6 with s6 | s6
      · exact absurd s6 (by rw [hta]; exact lt_irrefl _)
      · exact absurd s6 (by rw [hta, hba]; exact lt_irrefl _)

theorem strict_get {tt : List K} (hs : tt.Pairwise (· < ·)) {i j : Nat} {a b : K} (hi : tt[i]? = some a)
    (hj : tt[j]? = some b) (hij : i < j) : a < b := by
  obtain ⟨h1, rfl⟩ := List.getElem?_eq_some_iff.mp hi
  obtain ⟨h2, rfl⟩ := List.getElem?_eq_some_iff.mp hj
  exact List.pairwise_iff_getElem.mp hs i j h1 h2 hij

theorem head_le {tt : List K} (hs : tt.Pairwise (· ≤ ·)) {a b : K} {k : Nat} (ha : tt.head? = some a)
    (hb : tt[k]? = some b) : a ≤ b := by
  rw [List.head?_eq_getElem?] at ha
  obtain ⟨h1, rfl⟩ := List.getElem?_eq_some_iff.mp ha
  obtain ⟨h2, rfl⟩ := List.getElem?_eq_some_iff.mp hb
  rcases Nat.eq_zero_or_pos k with rfl | hk
  · exact le_refl _
  · exact List.pairwise_iff_getElem.mp hs 0 k h1 h2 hk

theorem le_last {tt : List K} (hs : tt.Pairwise (· ≤ ·)) {a b : K} {k : Nat} (hb : tt.getLast? = some b)
    (ha : tt[k]? = some a) : a ≤ b := by
  rw [List.getLast?_eq_getElem?] at hb
  obtain ⟨h1, rfl⟩ := List.getElem?_eq_some_iff.mp ha
  obtain ⟨h2, rfl⟩ := List.getElem?_eq_some_iff.mp hb
  rcases Nat.lt_or_ge k (tt.length - 1) with hk | hk
  · exact List.pairwise_iff_getElem.mp hs _ _ h1 h2 hk
  · have : k = tt.length - 1 := by omega
    subst this; exact le_refl _

/-- The curve of a strictly increasing table has one value at each time. -/
theorem onCurve_unique {tt vs : List K} (hs : tt.Pairwise (· < ·)) (hlen : vs.length = tt.length) {t y z : K}
    (h1 : OnCurve tt vs t y) (h2 : OnCurve tt vs t z) : y = z := by
  have hs' : tt.Pairwise (· ≤ ·) := hs.imp le_of_lt
  have seg : ∀ {k t0 t1 v0 v1 y}, tt[k]? = some t0 → tt[k + 1]? = some t1 → vs[k]? = some v0 →
      vs[k + 1]? = some v1 → t0 < t1 → (y - v0) * (t1 - t0) = (v1 - v0) * (t - t0) →
      (t = t0 → vs[k]? = some y) ∧ (t = t1 → vs[k + 1]? = some y) := by
    intro k t0 t1 v0 v1 y a1 a2 a3 a4 a5 a6
    constructor
    · rintro rfl
      have h0 : (y - v0) * (t1 - t) = 0 := by rw [a6]; ring
      rcases mul_eq_zero.mp h0 with h | h
      · rw [a3, sub_eq_zero.mp h]
      · exact absurd (sub_eq_zero.mp h) a5.ne'
    · rintro rfl
      have := mul_right_cancel₀ (sub_ne_zero.mpr a5.ne') a6
      rw [a4]; congr 1; linarith
  have hd : ∀ {k t0}, tt[k]? = some t0 → ∀ {a}, tt.head? = some a → t0 ≤ a → k = 0 := by
    intro k t0 hk a ha hle
    by_contra hk0
    rw [List.head?_eq_getElem?] at ha
    exact absurd (strict_get hs ha hk (Nat.pos_of_ne_zero hk0)) (not_lt.mpr hle)
  have tl : ∀ {k t0}, tt[k]? = some t0 → ∀ {a}, tt.getLast? = some a → a ≤ t0 → k = tt.length - 1 := by
    intro k t0 hk a ha hle
    by_contra hk0
    rw [List.getLast?_eq_getElem?] at ha
    obtain ⟨hkl, _⟩ := List.getElem?_eq_some_iff.mp hk
    exact absurd (strict_get hs hk ha (by omega)) (not_lt.mpr hle)
  have headSeg : ∀ {y z}, (∃ a, tt.head? = some a ∧ t ≤ a ∧ vs.head? = some y) →
      (∃ k t0 t1 v0 v1, tt[k]? = some t0 ∧ tt[k + 1]? = some t1 ∧ vs[k]? = some v0 ∧ vs[k + 1]? = some v1 ∧
        t0 ≤ t ∧ t ≤ t1 ∧ t0 < t1 ∧ (z - v0) * (t1 - t0) = (v1 - v0) * (t - t0)) → y = z := by
    rintro y z ⟨a, ha, hta, hy⟩ ⟨k, t0, t1, v0, v1, b1, b2, b3, b4, b5, b6, b7, b8⟩
    have hk := hd b1 ha (b5.trans hta)
    subst hk
    have h0 := head_le hs' ha b1
    have : t = t0 := le_antisymm (hta.trans h0) b5
    have := (seg b1 b2 b3 b4 b7 b8).1 this
    rw [List.head?_eq_getElem?] at hy
    rw [hy] at this; cases this; rfl
  have lastSeg : ∀ {y z}, (∃ a, tt.getLast? = some a ∧ a ≤ t ∧ vs.getLast? = some y) →
      (∃ k t0 t1 v0 v1, tt[k]? = some t0 ∧ tt[k + 1]? = some t1 ∧ vs[k]? = some v0 ∧ vs[k + 1]? = some v1 ∧
        t0 ≤ t ∧ t ≤ t1 ∧ t0 < t1 ∧ (z - v0) * (t1 - t0) = (v1 - v0) * (t - t0)) → y = z := by
    rintro y z ⟨a, ha, hta, hy⟩ ⟨k, t0, t1, v0, v1, b1, b2, b3, b4, b5, b6, b7, b8⟩
    have hk := tl b2 ha (hta.trans b6)
    have h0 := le_last hs' ha b2
    have : t = t1 := le_antisymm b6 (h0.trans hta)
    have := (seg b1 b2 b3 b4 b7 b8).2 this
    rw [List.getLast?_eq_getElem?, hlen, ← hk, this] at hy
    cases hy; rfl
  have headLast : ∀ {y z}, (∃ a, tt.head? = some a ∧ t ≤ a ∧ vs.head? = some y) →
      (∃ a, tt.getLast? = some a ∧ a ≤ t ∧ vs.getLast? = some z) → y = z := by
    rintro y z ⟨a, ha, hta, hy⟩ ⟨b, hb, htb, hz⟩
    have ha' := ha
    rw [List.head?_eq_getElem?] at ha' hy
    have := tl ha' hb (htb.trans hta)
    rw [List.getLast?_eq_getElem?, hlen, ← this, hy] at hz
    cases hz; rfl
  rcases h1 with h1 | h1 | h1 <;> rcases h2 with h2 | h2 | h2
  · obtain ⟨_, _, _, h⟩ := h1; obtain ⟨_, _, _, h'⟩ := h2; rw [h] at h'; cases h'; rfl
  · exact headLast h1 h2
  · exact headSeg h1 h2
  · exact (headLast h2 h1).symm
  · obtain ⟨_, _, _, h⟩ := h1; obtain ⟨_, _, _, h'⟩ := h2; rw [h] at h'; cases h'; rfl
  · exact lastSeg h1 h2
  · exact (headSeg h2 h1).symm
  · exact (lastSeg h2 h1).symm
  · obtain ⟨k, t0, t1, v0, v1, a1, a2, a3, a4, a5, a6, a7, a8⟩ := h1
    obtain ⟨j, s0, s1, w0, w1, b1, b2, b3, b4, b5, b6, b7, b8⟩ := h2
    have same : ∀ {k j : Nat} {t0 t1 v0 v1 s0 s1 w0 w1 y z : K}, tt[k]? = some t0 → tt[k + 1]? = some t1 →
        vs[k]? = some v0 → vs[k + 1]? = some v1 → t ≤ t1 → t0 < t1 →
        (y - v0) * (t1 - t0) = (v1 - v0) * (t - t0) → tt[j]? = some s0 → tt[j + 1]? = some s1 →
        vs[j]? = some w0 → vs[j + 1]? = some w1 → s0 ≤ t → s0 < s1 →
        (z - w0) * (s1 - s0) = (w1 - w0) * (t - s0) → k < j → y = z := by
      intro k j t0 t1 v0 v1 s0 s1 w0 w1 y z a1 a2 a3 a4 a6 a7 a8 b1 b2 b3 b4 b5 b7 b8 hkj
      have hk1 : k + 1 = j := by
        by_contra hc
        exact absurd (strict_get hs a2 b1 (by omega)) (not_lt.mpr (b5.trans a6))
      subst hk1
      rw [a2] at b1; cases b1
      have e : t = t1 := le_antisymm a6 b5
      have e1 := (seg a1 a2 a3 a4 a7 a8).2 e
      have e2 := (seg a2 b2 b3 b4 b7 b8).1 e
      rw [e1] at e2; cases e2; rfl
    rcases Nat.lt_trichotomy k j with hkj | hkj | hkj
    · exact same a1 a2 a3 a4 a6 a7 a8 b1 b2 b3 b4 b5 b7 b8 hkj
    · subst hkj
      rw [a1] at b1; rw [a2] at b2; rw [a3] at b3; rw [a4] at b4
      cases b1; cases b2; cases b3; cases b4
      have := mul_right_cancel₀ (sub_ne_zero.mpr a7.ne') (a8.trans b8.symm)
      linarith
    · exact (same b1 b2 b3 b4 b6 b7 b8 a1 a2 a3 a4 a5 a7 a8 hkj).symm

/-! ## The properties -/

/-- Strictly increasing times leave no degenerate interval. -/
theorem interp_strict (tt vs : List K) (hs : tt.Pairwise (· < ·)) (hlen : vs.length = tt.length) (hne : tt ≠ [])
    (t : K) (pos : Nat) : ∃ y p, interp (some t) tt vs pos = .ok (some y, p) ∧ OnCurve tt vs t y := by
  obtain ⟨y, p, h1, h2⟩ := interp_ok tt vs (hs.imp le_of_lt) hlen hne t pos
  rcases h2 with ⟨z, rfl, hz, _⟩ | ⟨_, _, _, _, _, _, _, ha, hb⟩
  · exact ⟨z, p, h1, hz⟩
  · exact absurd (strict_get hs ha hb (Nat.lt_succ_self p)) (lt_irrefl _)

theorem readings_of {tt vs : List K} {wrap : Bool} [FloorRing K] {f : K → K}
    (h : ∀ t pos, ∃ p, reading wrap t tt vs pos = .ok (some (f t), p)) (ts : List K) (pos : Nat) :
    ∃ p, readings wrap tt vs ts pos = .ok (ts.map fun t => some (f t), p) := by
  induction ts generalizing pos with
  | nil => exact ⟨pos, rfl⟩
  | cons t ts ih =>
    obtain ⟨p, hp⟩ := h t pos
    obtain ⟨q, hq⟩ := ih p
    exact ⟨q, by simp [readings, hp, hq]⟩

/-- **C117.** A table with strictly increasing times defines one function of time, its polyline,
and every sequence of readings, whatever was read before, gives the values of this function. -/
theorem C117_function [FloorRing K] (tt vs : List K) (hs : tt.Pairwise (· < ·)) (hlen : vs.length = tt.length)
    (hne : tt ≠ []) : ∃ f : K → K, (∀ t y, OnCurve tt vs t y ↔ y = f t) ∧
      ∀ ts pos, ∃ p, readings false tt vs ts pos = .ok (ts.map fun t => some (f t), p) := by
  choose f p hf hc using fun t => interp_strict tt vs hs hlen hne t 0
  refine ⟨f, fun t y => ⟨fun h => onCurve_unique hs hlen h (hc t), fun h => h ▸ hc t⟩, ?_⟩
  apply readings_of
  intro t pos
  obtain ⟨y, q, h1, h2⟩ := interp_strict tt vs hs hlen hne t pos
  exact ⟨q, by simp [reading, h1, onCurve_unique hs hlen h2 (hc t)]⟩

example : ([0, 1, 3] : List ℚ).Pairwise (· < ·) ∧
    readings false ([0, 1, 3] : List ℚ) [5, 7, 3] [2, -1, 1 / 2, 9, 2] 0 =
      .ok ([some 5, some 5, some 6, some 3, some 5], 1) := by decide +kernel

theorem wrap_spec [FloorRing K] {x x0 x1 : K} (h : x0 < x1) : ∃ (w : K) (k : ℤ), periodicWrap x x0 x1 = some w ∧
    x0 ≤ w ∧ w < x1 ∧ x = w + k * (x1 - x0) := by
  have hd : 0 < x1 - x0 := sub_pos.mpr h
  obtain ⟨q, hq⟩ : ∃ q, q = (x - x0) / (x1 - x0) := ⟨_, rfl⟩
  have hm : q * (x1 - x0) = x - x0 := by rw [hq]; exact div_mul_cancel₀ _ hd.ne'
  refine ⟨x0 + (q - ⌊q⌋) * (x1 - x0), ⌊q⌋, by unfold periodicWrap; rw [if_neg hd.ne', hq], ?_, ?_, ?_⟩
  · have := Int.floor_le q
    have : 0 ≤ (q - ⌊q⌋) * (x1 - x0) := mul_nonneg (by linarith) hd.le
    linarith
  · have := Int.lt_floor_add_one q
    have : (q - ⌊q⌋) * (x1 - x0) < 1 * (x1 - x0) := mul_lt_mul_of_pos_right (by linarith) hd
    linarith
  · linear_combination -hm

/-- **C117 (wrapping).** With `wrap`, a table of at least two strictly increasing times repeats with
the period from its first to its last time: the value read is that of the polyline at the time
shifted into the table by whole periods. -/
theorem C117_wrap [FloorRing K] (tt vs : List K) (hs : tt.Pairwise (· < ·)) (hlen : vs.length = tt.length)
    (a b : K) (ha : tt.head? = some a) (hb : tt.getLast? = some b) (hab : a ≠ b) : ∃ f : K → K,
      (∀ t, f (t + (b - a)) = f t) ∧ (∀ t y, a ≤ t → t < b → (OnCurve tt vs t y ↔ y = f t)) ∧
      ∀ ts pos, ∃ p, readings true tt vs ts pos = .ok (ts.map fun t => some (f t), p) := by
  have hne : tt ≠ [] := by rintro rfl; simp at ha
  have hlt : a < b := lt_of_le_of_ne (by
    rw [List.getLast?_eq_getElem?] at hb; exact head_le (hs.imp le_of_lt) ha hb) hab
  choose w k hw h0 h1 hk using fun x : K => wrap_spec (x := x) hlt
  have huniq : ∀ (x y : K) (m : ℤ), a ≤ y → y < b → x = y + m * (b - a) → w x = y := by
    intro x y m hy hy' e
    have hd : 0 < b - a := sub_pos.mpr hlt
    have e2 : ((k x - m : ℤ) : K) * (b - a) = y - w x := by
      push_cast; linear_combination e - hk x
    have hz : k x - m = 0 := by
      by_contra hc
      rcases lt_or_gt_of_ne hc with hc | hc
      · have : ((k x - m : ℤ) : K) ≤ -1 := by exact_mod_cast Int.le_sub_one_of_lt hc
        have : ((k x - m : ℤ) : K) * (b - a) ≤ -1 * (b - a) := mul_le_mul_of_nonneg_right this hd.le
        have := h1 x
        linarith
      · have : (1 : K) ≤ ((k x - m : ℤ) : K) := by exact_mod_cast hc
        have : 1 * (b - a) ≤ ((k x - m : ℤ) : K) * (b - a) := mul_le_mul_of_nonneg_right this hd.le
        have := h0 x
        linarith
    rw [hz] at e2
    push_cast at e2
    linarith
  choose f p hf hc using fun t => interp_strict tt vs hs hlen hne t 0
  refine ⟨fun t => f (w t), fun t => ?_, fun t y hat htb => ?_, ?_⟩
  · have : w (t + (b - a)) = w t := huniq _ _ (k t + 1) (h0 t) (h1 t) (by
      have := hk t
      push_cast
      linear_combination this)
    simp only [this]
  · have : w t = t := huniq t t 0 hat htb (by push_cast; ring)
    simp only [this]
    exact ⟨fun h => onCurve_unique hs hlen h (hc t), fun h => h ▸ hc t⟩
  · apply readings_of
    intro t pos
    obtain ⟨y, q, e1, e2⟩ := interp_strict tt vs hs hlen hne (w t) pos
    have ha' : tt[0]? = some a := by rw [← List.head?_eq_getElem?, ha]
    have hb' : tt[tt.length - 1]? = some b := by rw [← List.getLast?_eq_getElem?, hb]
    exact ⟨q, by simp [reading, at_ok ha', at_ok hb', hw, e1, onCurve_unique hs hlen e2 (hc (w t))]⟩

example : readings true ([0, 1, 3] : List ℚ) [5, 7, 3] [2, 5, -1, 1 / 2, 9 + 1 / 2, 3] 0 =
    .ok ([some 5, some 5, some 5, some 6, some 6, some 5], 0) := by decide +kernel

/-- **C117 (range).** No value outside the range of the given ones is ever produced. -/
theorem C117_range (tt vs : List K) (t y : K) (h : OnCurve tt vs t y) :
    ∃ u ∈ vs, ∃ v ∈ vs, u ≤ y ∧ y ≤ v := by
  rcases h with ⟨_, _, _, h⟩ | ⟨_, _, _, h⟩ | ⟨k, t0, t1, v0, v1, _, _, h3, h4, h5, h6, h7, h8⟩
  · have := List.mem_of_head? h
    exact ⟨y, this, y, this, le_refl _, le_refl _⟩
  · have := List.mem_of_getLast? h
    exact ⟨y, this, y, this, le_refl _, le_refl _⟩
  · have m0 := List.mem_of_getElem? h3
    have m1 := List.mem_of_getElem? h4
    have hd : 0 < t1 - t0 := sub_pos.mpr h7
    have key : (v1 - y) * (t1 - t0) = (v1 - v0) * (t1 - t) := by linear_combination -h8
    rcases le_total v0 v1 with hv | hv
    · refine ⟨v0, m0, v1, m1, ?_, ?_⟩
      · have : 0 ≤ (y - v0) * (t1 - t0) := by rw [h8]; exact mul_nonneg (by linarith) (by linarith)
        linarith [nonneg_of_mul_nonneg_left this hd]
      · have : 0 ≤ (v1 - y) * (t1 - t0) := by rw [key]; exact mul_nonneg (by linarith) (by linarith)
        linarith [nonneg_of_mul_nonneg_left this hd]
    · refine ⟨v1, m1, v0, m0, ?_, ?_⟩
      · have : 0 ≤ (y - v1) * (t1 - t0) := by
          have : (y - v1) * (t1 - t0) = (v0 - v1) * (t1 - t) := by linear_combination -key
          rw [this]; exact mul_nonneg (by linarith) (by linarith)
        linarith [nonneg_of_mul_nonneg_left this hd]
      · have : 0 ≤ (v0 - y) * (t1 - t0) := by
          have : (v0 - y) * (t1 - t0) = (v0 - v1) * (t - t0) := by linear_combination -h8
          rw [this]; exact mul_nonneg (by linarith) (by linarith)
        linarith [nonneg_of_mul_nonneg_left this hd]

/-- What the position is after readings that began with a fresh engine. -/
def PosOk (tt : List K) (p : Nat) : Prop :=
  p = 0 ∨ sizeMinus2 tt.length ≤ p ∨ ∃ a b, tt[p]? = some a ∧ tt[p + 1]? = some b ∧ a < b

theorem interp_step (tt vs : List K) (hs : tt.Pairwise (· ≤ ·)) (hlen : vs.length = tt.length) (hne : tt ≠ [])
    (t : K) (pos : Nat) (hp : PosOk tt pos) :
    ∃ y p, interp (some t) tt vs pos = .ok (some y, p) ∧ OnCurve tt vs t y ∧ PosOk tt p := by
  obtain ⟨y, p, h1, h2⟩ := interp_ok tt vs hs hlen hne t pos
  rcases h2 with ⟨z, rfl, hz, hpz⟩ | ⟨hmin, first, last, hf, hl, hft, htl, ha, hb⟩
  · refine ⟨z, p, h1, hz, ?_⟩
    rcases hpz with h | h | h
    · exact Or.inl h
    · exact Or.inr (Or.inl h.ge)
    · exact Or.inr (Or.inr h)
  · exfalso
    rcases hp with hp | hp | ⟨a, b, h3, h4, h5⟩
    · rw [hp, Nat.zero_min] at hmin
      rw [hmin, hf] at ha; cases ha; exact lt_irrefl _ hft
    · rw [Nat.min_eq_right hp] at hmin
      obtain ⟨hpl, _⟩ := List.getElem?_eq_some_iff.mp hb
      have hlen' : 2 ≤ tt.length := by omega
      simp only [sizeMinus2, if_pos hlen'] at hmin
      have : p + 1 = tt.length - 1 := by omega
      rw [this, hl] at hb; cases hb; exact lt_irrefl _ htl
    · by_cases hc : pos ≤ sizeMinus2 tt.length
      · rw [Nat.min_eq_left hc] at hmin
        subst hmin
        rw [ha] at h3; rw [hb] at h4; cases h3; cases h4; exact lt_irrefl _ h5
      · rw [Nat.min_eq_right (by omega)] at hmin
        obtain ⟨hpl, _⟩ := List.getElem?_eq_some_iff.mp hb
        have hlen' : 2 ≤ tt.length := by omega
        simp only [sizeMinus2, if_pos hlen'] at hmin
        have : p + 1 = tt.length - 1 := by omega
        rw [this, hl] at hb; cases hb; exact lt_irrefl _ htl

/-- **C117 (jumps, partial).** With repeated times (a jump of the prescribed quantity), as long as the
table is not exchanged, every reading is still defined and on the curve; at the time of the jump
itself it may be the value before or after.  Missing: that it is always the same one
(`C117_violated_history`). -/
theorem C117_jumps_partial [FloorRing K] (tt vs : List K) (hs : tt.Pairwise (· ≤ ·)) (hlen : vs.length = tt.length)
    (hne : tt ≠ []) (ts : List K) : ∃ ys p, readings false tt vs ts 0 = .ok (ys, p) ∧
      List.Forall₂ (fun t y => ∃ z, y = some z ∧ OnCurve tt vs t z) ts ys := by
  suffices h : ∀ pos, PosOk tt pos → ∃ ys p, readings false tt vs ts pos = .ok (ys, p) ∧
      List.Forall₂ (fun t y => ∃ z, y = some z ∧ OnCurve tt vs t z) ts ys from h 0 (Or.inl rfl)
  induction ts with
  | nil => exact fun pos _ => ⟨[], pos, rfl, .nil⟩
  | cons t ts ih =>
    intro pos hp
    obtain ⟨y, p, h1, h2, h3⟩ := interp_step tt vs hs hlen hne t pos hp
    obtain ⟨ys, q, h4, h5⟩ := ih p h3
    exact ⟨some y :: ys, q, by simp [readings, reading, h1, h4], .cons ⟨y, rfl, h2⟩ h5⟩

example : ([0, 1, 1, 2] : List ℚ).Pairwise (· ≤ ·) ∧
    readings false ([0, 1, 1, 2] : List ℚ) [0, 0, 6, 8] [1 / 2, 1, 3 / 2, 1, 3] 0 =
      .ok ([some 0, some 0, some 7, some 6, some 8], 2) := by decide +kernel

/-- **C117 fails for jumps.** The same time of the same table read twice gives two values, depending
on what was read in between. -/
theorem C117_violated_history : readings false ([0, 1, 1, 2] : List ℚ) [0, 0, 6, 8] [1, 2, 1] 0 =
    .ok ([some 0, some 8, some 6], 2) := by decide +kernel

/-- **C117 fails when the table is exchanged.** Read in the third interval, then given a table of the
same length with a jump there, the engine applies NaN. -/
theorem C117_violated_exchanged : ∃ p, readings false ([0, 1, 2, 3] : List ℚ) [0, 0, 6, 8] [3 / 2] 0 = .ok ([some 3], p) ∧
    interp (some (1 : ℚ)) [0, 1, 1, 2] [0, 0, 6, 8] p = .ok (none, p) := ⟨1, by decide +kernel⟩

/-- **C117 fails for a single time with wrap.** The table is read past its end. -/
theorem C117_violated_single (t : K) [FloorRing K] (a v : K) : reading true t [a] [v] 0 = .ub := by
  simp [reading, at', periodicWrap, interp, sizeMinus2, search]

/-- **C117 fails for tables of different length.** Fewer values than times are read past their end. -/
theorem C117_violated_short : ∃ p, reading false (3 / 2 : ℚ) [0, 1, 2] [4, 5] 0 = .ub ∧
    reading false (1 / 2 : ℚ) [0, 1, 2] [4, 5] 0 = .ok p := ⟨(some (9 / 2), 0), by decide +kernel⟩

end Verif.Drive
