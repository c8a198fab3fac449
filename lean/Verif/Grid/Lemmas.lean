import Verif.Grid.Model
import Verif.Collide.Lemmas
import Mathlib.Tactic.Linarith
import Mathlib.Tactic.Ring
import Mathlib.Tactic.FinCases
import Mathlib.Data.Fintype.Basic
/-!
# Lemmas about the grid collider
-/
namespace Verif.Grid
open Verif Verif.Collide

theorem is_comm (e : GI) (i j : Nat) : e.is i j = e.is j i := by unfold GI.is; rw [Bool.or_comm]

theorem is_iff (e : GI) (i j : Nat) : e.is i j = true ↔ (e.a = i ∧ e.b = j) ∨ (e.a = j ∧ e.b = i) := by
  simp [GI.is]

theorem has_comm (I : List GI) (i j : Nat) : has I i j = has I j i := by unfold has; simp only [is_comm]

theorem has_iff (I : List GI) (i j : Nat) : has I i j = true ↔ ∃ e ∈ I, e.is i j = true := by simp [has]

theorem has_append (I J : List GI) (i j : Nat) : has (I ++ J) i j = (has I i j || has J i j) := by simp [has]

theorem has_see (iter : Int) (I : List GI) (i j k l : Nat) : has (see iter I i j) k l = has I k l := by
  unfold has see
  rw [List.any_map]
  congr 1
  funext e
  simp only [Function.comp_apply]
  split <;> rfl

theorem upto_mem {a b x : Int} : x ∈ upto a b ↔ a ≤ x ∧ x ≤ b := by
  unfold upto
  simp only [List.mem_map, List.mem_range]
  constructor
  · rintro ⟨n, h, rfl⟩; omega
  · rintro ⟨h1, h2⟩; exact ⟨(x - a).toNat, by omega, by omega⟩

theorem box3_mem {lo hi c : Fin 3 → Int} (h : ∀ i, lo i ≤ c i ∧ c i ≤ hi i) : c ∈ box3 lo hi := by
  unfold box3
  simp only [List.mem_flatMap, List.mem_map, upto_mem]
  refine ⟨c 0, h 0, c 1, h 1, c 2, h 2, ?_⟩
  funext i
  fin_cases i <;> rfl

theorem fit_range {i sz : Int} (h : 1 ≤ sz) : 0 ≤ fit i sz ∧ fit i sz < sz := by unfold fit; omega

theorem fit_fit {i sz : Int} (h : 1 ≤ sz) : fit (fit i sz) sz = fit i sz := by unfold fit; omega

section
variable {R : Type} [Field R] [LinearOrder R] [IsStrictOrderedRing R] [FloorRing R]

theorem lin_range {g : Cells R} (hs : ∀ i, 1 ≤ g.size i) (x y z : Int) : 0 ≤ g.lin x y z ∧ g.lin x y z < g.len := by
  unfold Cells.lin Cells.len
  have h0 := fit_range (i := x) (hs 0)
  have h1 := fit_range (i := y) (hs 1)
  have h2 := fit_range (i := z) (hs 2)
  have s0 := hs 0
  have s1 := hs 1
  generalize g.size 0 = a at *
  generalize g.size 1 = b at *
  generalize g.size 2 = c at *
  generalize fit x a = x at *
  generalize fit y b = y at *
  generalize fit z c = z at *
  have hab : 0 ≤ a * b := by nlinarith
  constructor
  · have := mul_nonneg (by omega : 0 ≤ a) h1.1
    have := mul_nonneg hab h2.1
    omega
  · have t1 : a * y ≤ a * (b - 1) := mul_le_mul_of_nonneg_left (by omega) (by omega)
    have t2 : a * b * z ≤ a * b * (c - 1) := mul_le_mul_of_nonneg_left (by omega) hab
    have t3 : a * (b - 1) = a * b - a := by ring
    have t4 : a * b * (c - 1) = a * b * c - a * b := by ring
    omega

/-- the frame of a grid: everything but the contents of the cells -/
def Frame (g g' : Cells R) : Prop := g'.size = g.size ∧ g'.mn = g.mn ∧ g'.step = g.step

omit [IsStrictOrderedRing R] [FloorRing R] [LinearOrder R] [Field R] in
theorem Frame.trans {a b c : Cells R} (h : Frame a b) (h' : Frame b c) : Frame a c :=
  ⟨h'.1.trans h.1, h'.2.1.trans h.2.1, h'.2.2.trans h.2.2⟩

/-- the number of the cell an integer point is put into -/
def Cells.cellNo (g : Cells R) (c : Fin 3 → Int) : Int := g.lin (fit (c 0) (g.size 0)) (fit (c 1) (g.size 1)) (fit (c 2) (g.size 2))

theorem Frame.cellNo {g g' : Cells R} (h : Frame g g') (c : Fin 3 → Int) : g'.cellNo c = g.cellNo c := by
  unfold Cells.cellNo Cells.lin; rw [h.1]

theorem Frame.inside {g g' : Cells R} (h : Frame g g') (C : Fin 3 → R) (r : R) (c : Fin 3 → Int) : g'.inside C r c = g.inside C r c := by
  unfold Cells.inside Cells.closest Cells.pt2int; rw [h.2.1, h.2.2]

theorem Frame.pt2int {g g' : Cells R} (h : Frame g g') (C : Fin 3 → R) : g'.pt2int C = g.pt2int C := by
  unfold Cells.pt2int; rw [h.2.1, h.2.2]

theorem put_ok {g : Cells R} (hs : ∀ i, 1 ≤ g.size i) (id : Nat) (c : Fin 3 → Int) :
    ∃ g', g.put id c = .ok g' ∧ Frame g g' ∧ id ∈ g'.data (g.cellNo c) ∧
      (∀ k, ∀ x ∈ g.data k, x ∈ g'.data k) ∧ ∀ k, ∀ x ∈ g'.data k, x ∈ g.data k ∨ x = id := by
  unfold Cells.put
  dsimp only
  rw [if_pos (lin_range hs _ _ _)]
  split
  · rename_i hl
    refine ⟨g, rfl, ⟨rfl, rfl, rfl⟩, List.mem_of_getLast? hl, fun _ _ h => h, fun _ _ h => .inl h⟩
  · refine ⟨_, rfl, ⟨rfl, rfl, rfl⟩, ?_, ?_, ?_⟩
    · simp [Cells.cellNo]
    · intro k x hx
      dsimp only
      split
      · rename_i e; subst e; exact List.mem_append_left _ hx
      · exact hx
    · intro k x hx
      dsimp only at hx
      split at hx
      · rename_i e; subst e
        rcases List.mem_append.mp hx with h | h
        · exact .inl h
        · exact .inr (List.mem_singleton.mp h)
      · exact .inl hx

theorem fillCells_ok (C : Fin 3 → R) (r : R) (id : Nat) : ∀ (cs : List (Fin 3 → Int)) {g : Cells R}, (∀ i, 1 ≤ g.size i) →
    ∃ g', fillCells C r id cs g = .ok g' ∧ Frame g g' ∧ (∀ c ∈ cs, g.inside C r c = true → id ∈ g'.data (g.cellNo c)) ∧
      (∀ k, ∀ x ∈ g.data k, x ∈ g'.data k) ∧ ∀ k, ∀ x ∈ g'.data k, x ∈ g.data k ∨ x = id
  | [], g, _ => ⟨g, rfl, ⟨rfl, rfl, rfl⟩, (fun _ h => by cases h), fun _ _ h => h, fun _ _ h => .inl h⟩
  | c :: cs, g, hs => by
    obtain ⟨g1, e1, f1, i1, m1, n1⟩ : ∃ g1, (if g.inside C r c then g.put id c else .ok g) = .ok g1 ∧ Frame g g1 ∧
        (g.inside C r c = true → id ∈ g1.data (g.cellNo c)) ∧
        (∀ k, ∀ x ∈ g.data k, x ∈ g1.data k) ∧ ∀ k, ∀ x ∈ g1.data k, x ∈ g.data k ∨ x = id := by
      split
      · obtain ⟨g1, e1, f1, i1, m1, n1⟩ := put_ok hs id c
        exact ⟨g1, e1, f1, fun _ => i1, m1, n1⟩
      · rename_i h
        exact ⟨g, rfl, ⟨rfl, rfl, rfl⟩, fun h' => absurd h' h, fun _ _ h => h, fun _ _ h => .inl h⟩
    have hs1 : ∀ i, 1 ≤ g1.size i := by rw [f1.1]; exact hs
    obtain ⟨g2, e2, f2, i2, m2, n2⟩ := fillCells_ok C r id cs hs1
    refine ⟨g2, ?_, f1.trans f2, ?_, fun k x h => m2 k x (m1 k x h), fun k x h => ?_⟩
    · unfold fillCells; rw [e1, Res.bind_ok, e2]
    · intro d hd hin
      rcases List.mem_cons.mp hd with rfl | hd
      · exact m2 _ _ (i1 hin)
      · rw [← f1.cellNo]; exact i2 d hd (by rw [f1.inside]; exact hin)
    · rcases n2 k x h with h | h
      · exact n1 k x h
      · exact .inr h

/-- on one axis the point of the cell closest to the centre is not farther from it than any point of the cell -/
theorem closest_le {g : Cells R} (hst : 0 < g.step) (hm : ∀ i, g.mn i = g.mn 1) (C X : Fin 3 → R) (i : Fin 3) :
    (C i - g.closest C (g.pt2int X) i) ^ 2 ≤ (C i - X i) ^ 2 := by
  unfold Cells.closest
  have hX1 := Int.floor_le ((X i - g.mn 1) / g.step)
  have hX2 := Int.lt_floor_add_one ((X i - g.mn 1) / g.step)
  have hC1 := Int.floor_le ((C i - g.mn 1) / g.step)
  have hC2 := Int.lt_floor_add_one ((C i - g.mn 1) / g.step)
  rw [le_div_iff₀ hst] at hX1 hC1
  rw [div_lt_iff₀ hst] at hX2 hC2
  change ((g.pt2int X i : Int) : R) * g.step ≤ _ at hX1
  change ((g.pt2int C i : Int) : R) * g.step ≤ _ at hC1
  change _ < (((g.pt2int X i : Int) : R) + 1) * g.step at hX2
  change _ < (((g.pt2int C i : Int) : R) + 1) * g.step at hC2
  generalize g.pt2int X i = x at *
  generalize g.pt2int C i = c at *
  rw [hm i]
  split
  · rw [sub_self]; nlinarith [sq_nonneg (C i - X i)]
  · split
    · rename_i h1 h2
      have h3 : ((x : R) + 1) * g.step ≤ (c : R) * g.step := by
        refine mul_le_mul_of_nonneg_right ?_ hst.le
        have : x + 1 ≤ c := h2
        exact_mod_cast this
      have e : g.mn 1 + g.step * ((x : R) + 1) = g.mn 1 + ((x : R) + 1) * g.step := by ring
      rw [e]
      exact pow_le_pow_left₀ (by linarith) (by linarith) 2
    · rename_i h1 h2
      have h3 : ((c : R) + 1) * g.step ≤ (x : R) * g.step := by
        refine mul_le_mul_of_nonneg_right ?_ hst.le
        have : c + 1 ≤ x := by omega
        exact_mod_cast this
      have e : (C i - (g.mn 1 + g.step * ((x : R) + 0))) ^ 2 = (g.mn 1 + (x : R) * g.step - C i) ^ 2 := by ring
      rw [e]
      have e : (C i - X i) ^ 2 = (X i - C i) ^ 2 := by ring
      rw [e]
      exact pow_le_pow_left₀ (by linarith) (by linarith) 2

theorem pt2int_mono {g : Cells R} (hst : 0 < g.step) {p q : Fin 3 → R} {i : Fin 3} (h : p i ≤ q i) : g.pt2int p i ≤ g.pt2int q i := by
  unfold Cells.pt2int
  exact Int.floor_le_floor (by rw [div_le_div_iff_of_pos_right hst]; linarith)

/-- squared distance -/
def dist2 (C X : Fin 3 → R) : R := (C 0 - X 0) ^ 2 + (C 1 - X 1) ^ 2 + (C 2 - X 2) ^ 2

omit [FloorRing R] in
theorem coord_of_dist {C X : Fin 3 → R} {r : R} (hr : 0 ≤ r) (h : dist2 C X ≤ r ^ 2) (i : Fin 3) : C i - r ≤ X i ∧ X i ≤ C i + r := by
  unfold dist2 at h
  have hi : (C i - X i) ^ 2 ≤ r ^ 2 := by
    have := sq_nonneg (C 0 - X 0)
    have := sq_nonneg (C 1 - X 1)
    have := sq_nonneg (C 2 - X 2)
    fin_cases i <;> simp only [Fin.zero_eta, Fin.mk_one, Fin.reduceFinMk] <;> linarith
  have := abs_le_of_sq_le_sq' hi hr
  constructor <;> linarith [this.1, this.2]

/-- a sphere is entered in the cell of every point it contains -/
theorem updateBody_ok (v : R) (id : Nat) (b : GBody R) {rad : R} (hb : b.shape = some (some rad)) {g : Cells R} (hst : 0 < g.step)
    (hm : ∀ i, g.mn i = g.mn 1) (hr : 0 ≤ rad + v) (hs : ∀ i, 1 ≤ g.size i) :
    ∃ g', updateBodyCells v id b g = .ok g' ∧ Frame g g' ∧
      (∀ X, dist2 b.pos X ≤ (rad + v) ^ 2 → id ∈ g'.data (g.cellNo (g.pt2int X))) ∧
      (∀ k, ∀ x ∈ g.data k, x ∈ g'.data k) ∧ ∀ k, ∀ x ∈ g'.data k, x ∈ g.data k ∨ x = id := by
  unfold updateBodyCells
  rw [hb]
  obtain ⟨g', e, f, i, m, n⟩ := fillCells_ok b.pos (rad + v) id
    (box3 (g.pt2int fun i => b.pos i - (rad + v)) (g.pt2int fun i => b.pos i + (rad + v))) hs
  refine ⟨g', e, f, fun X hX => i _ (box3_mem fun a => ?_) ?_, m, n⟩
  · have := coord_of_dist hr hX a
    exact ⟨pt2int_mono hst this.1, pt2int_mono hst this.2⟩
  · unfold Cells.inside
    rw [decide_eq_true_eq]
    unfold dist2 at hX
    have h0 := closest_le hst hm b.pos X 0
    have h1 := closest_le hst hm b.pos X 1
    have h2 := closest_le hst hm b.pos X 2
    have : (rad + v) ^ 2 = (rad + v) * (rad + v) := by ring
    linarith

theorem updateBody_any (v : R) (id : Nat) (b : GBody R) {g : Cells R} (hs : ∀ i, 1 ≤ g.size i) :
    updateBodyCells v id b g = .throws ∨ ∃ g', updateBodyCells v id b g = .ok g' ∧ Frame g g' ∧
      (∀ k, ∀ x ∈ g.data k, x ∈ g'.data k) ∧ ∀ k, ∀ x ∈ g'.data k, x ∈ g.data k ∨ x = id := by
  unfold updateBodyCells
  split
  · exact .inr ⟨g, rfl, ⟨rfl, rfl, rfl⟩, fun _ _ h => h, fun _ _ h => .inl h⟩
  · exact .inl rfl
  · rename_i rad _
    obtain ⟨g', e, f, -, m, n⟩ := fillCells_ok b.pos (rad + v) id
      (box3 (g.pt2int fun i => b.pos i - (rad + v)) (g.pt2int fun i => b.pos i + (rad + v))) hs
    exact .inr ⟨g', e, f, m, n⟩

theorem allBodies_any (v : R) : ∀ (bs : List (Option (GBody R))) (k : Nat) {g : Cells R}, (∀ i, 1 ≤ g.size i) →
    allBodies v k bs g = .throws ∨ ∃ g', allBodies v k bs g = .ok g' ∧ Frame g g' ∧
      (∀ c, ∀ x ∈ g.data c, x ∈ g'.data c) ∧ ∀ c, ∀ x ∈ g'.data c, x ∈ g.data c ∨ (k ≤ x ∧ (bs.getD (x - k) none).isSome)
  | [], k, g, _ => .inr ⟨g, rfl, ⟨rfl, rfl, rfl⟩, fun _ _ h => h, fun _ _ h => .inl h⟩
  | none :: bs, k, g, hs => by
    unfold allBodies
    rcases allBodies_any v bs (k + 1) hs with h | ⟨g', e, f, m, n⟩
    · exact .inl h
    · refine .inr ⟨g', e, f, m, fun c x hx => (n c x hx).imp_right fun h => ⟨by omega, ?_⟩⟩
      rw [show x - k = (x - (k + 1)) + 1 by omega]; exact h.2
  | some b :: bs, k, g, hs => by
    unfold allBodies
    rcases updateBody_any v k b hs with h | ⟨g1, e1, f1, m1, n1⟩
    · exact .inl (by rw [h]; rfl)
    · have hs1 : ∀ i, 1 ≤ g1.size i := by rw [f1.1]; exact hs
      rw [e1, Res.bind_ok]
      rcases allBodies_any v bs (k + 1) hs1 with h | ⟨g', e, f, m, n⟩
      · exact .inl h
      · refine .inr ⟨g', e, f1.trans f, fun c x h => m c x (m1 c x h), fun c x hx => ?_⟩
        rcases n c x hx with h | h
        · rcases n1 c x h with h | rfl
          · exact .inl h
          · exact .inr ⟨le_refl _, by rw [Nat.sub_self]; rfl⟩
        · refine .inr ⟨by omega, ?_⟩
          rw [show x - k = (x - (k + 1)) + 1 by omega]; exact h.2

/-- after the loop over the bodies every sphere is in the cell of every point it contains -/
theorem allBodies_in (v : R) : ∀ (bs : List (Option (GBody R))) (k : Nat) {g g' : Cells R}, (∀ i, 1 ≤ g.size i) → 0 < g.step →
    (∀ i, g.mn i = g.mn 1) → allBodies v k bs g = .ok g' → ∀ {n : Nat} {b : GBody R} {rad : R}, bs.getD n none = some b →
    b.shape = some (some rad) → 0 ≤ rad + v → ∀ X, dist2 b.pos X ≤ (rad + v) ^ 2 → k + n ∈ g'.data (g.cellNo (g.pt2int X))
  | [], _, _, _, _, _, _, _, n, b, _, hb, _, _, _, _ => by simp at hb
  | none :: bs, k, g, g', hs, hst, hm, h, n, b, rad, hb, hsh, hr, X, hX => by
    unfold allBodies at h
    cases n with
    | zero => simp at hb
    | succ n =>
      rw [show k + (n + 1) = (k + 1) + n by omega]
      exact allBodies_in v bs (k + 1) hs hst hm h (by simpa using hb) hsh hr X hX
  | some b0 :: bs, k, g, g', hs, hst, hm, h, n, b, rad, hb, hsh, hr, X, hX => by
    unfold allBodies at h
    cases n with
    | zero =>
      rw [List.getD_cons_zero] at hb
      injection hb with hb
      subst hb
      obtain ⟨g1, e1, f1, i1, -, -⟩ := updateBody_ok v k b0 hsh hst hm hr hs
      rw [e1, Res.bind_ok] at h
      have hs1 : ∀ i, 1 ≤ g1.size i := by rw [f1.1]; exact hs
      rcases allBodies_any v bs (k + 1) hs1 with h' | ⟨g2, e, f, m, -⟩
      · rw [h'] at h; cases h
      · rw [e] at h; injection h with h; subst h
        exact m _ _ (i1 X hX)
    | succ n =>
      rcases updateBody_any v k b0 hs with h' | ⟨g1, e1, f1, -, -⟩
      · rw [h'] at h; cases h
      · rw [e1, Res.bind_ok] at h
        have hs1 : ∀ i, 1 ≤ g1.size i := by rw [f1.1]; exact hs
        have hst1 : 0 < g1.step := by rw [f1.2.2]; exact hst
        have hm1 : ∀ i, g1.mn i = g1.mn 1 := by rw [f1.2.1]; exact hm
        have := allBodies_in v bs (k + 1) hs1 hst1 hm1 h (n := n) (by simpa using hb) hsh hr X hX
        rw [f1.cellNo, f1.pt2int] at this
        rw [show k + (n + 1) = (k + 1) + n by omega]
        exact this

theorem allBodies_frame {v : R} {bs : List (Option (GBody R))} {k : Nat} {g g' : Cells R} (hs : ∀ i, 1 ≤ g.size i)
    (h : allBodies v k bs g = .ok g') : Frame g g' ∧ ∀ c, ∀ x ∈ g'.data c, x ∈ g.data c ∨ (k ≤ x ∧ (bs.getD (x - k) none).isSome) := by
  rcases allBodies_any v bs k hs with h' | ⟨g2, e, f, -, n⟩
  · rw [h'] at h; cases h
  · rw [e] at h; injection h with h; subst h; exact ⟨f, n⟩

theorem updateGrid_ok {step : R} {mn mx : Fin 3 → R} {g : Cells R} (h : updateGrid step mn mx = .ok g) :
    0 < g.step ∧ g.mn = mn ∧ (∀ i, 1 ≤ g.size i) ∧ ∀ k, g.data k = [] := by
  unfold updateGrid at h
  split at h
  · cases h
  · rename_i h1
    split at h
    · cases h
    · rename_i h2
      injection h with h
      subst h
      push Not at h1 h2
      refine ⟨h1, rfl, fun i => ?_, fun _ => rfl⟩
      have : 0 < (mx i - mn i) / step := by
        refine div_pos ?_ h1
        fin_cases i
        · exact h2.1
        · exact h2.2.1
        · exact h2.2.2
      exact Int.one_le_ceil_iff.mpr this

end

/-! ## Pairs of one cell -/

/-- what the collider leaves of the interactions: `I'` is `I`, some of them marked as seen at `iter`, followed by new ones, none of them real,
each for a pair of bodies that may collide -/
structure Grown (ok : Nat → Nat → Prop) (iter : Int) (I I' : List GI) : Prop where
  old : ∀ e ∈ I, e ∈ I' ∨ { e with seen := iter } ∈ I'
  new : ∀ e' ∈ I', (∃ e ∈ I, e' = e ∨ e' = { e with seen := iter }) ∨
    (e'.real = false ∧ ok e'.a e'.b ∧ e'.a ≠ e'.b ∧ has I e'.a e'.b = false ∧ (e'.seen = -1 ∨ e'.seen = iter))

theorem Grown.refl (ok : Nat → Nat → Prop) (iter : Int) (I : List GI) : Grown ok iter I I :=
  ⟨fun _ h => .inl h, fun e h => .inl ⟨e, h, .inl rfl⟩⟩

theorem Grown.has {ok : Nat → Nat → Prop} {iter : Int} {I I' : List GI} (h : Grown ok iter I I') {i j : Nat} (hh : has I i j = true) :
    has I' i j = true := by
  obtain ⟨e, he, hi⟩ := (has_iff _ _ _).mp hh
  rcases h.old e he with h | h
  · exact (has_iff _ _ _).mpr ⟨e, h, hi⟩
  · exact (has_iff _ _ _).mpr ⟨_, h, hi⟩

theorem Grown.trans {ok : Nat → Nat → Prop} {iter : Int} {I I' I'' : List GI} (h : Grown ok iter I I') (h' : Grown ok iter I' I'') :
    Grown ok iter I I'' := by
  refine ⟨fun e he => ?_, fun e' he' => ?_⟩
  · rcases h.old e he with h1 | h1
    · exact h'.old e h1
    · rcases h'.old _ h1 with h2 | h2
      · exact .inr h2
      · exact .inr h2
  · rcases h'.new e' he' with ⟨f, hf, hfe⟩ | ⟨h1, h2, h3, h4, h5⟩
    · rcases h.new f hf with ⟨e, he, hef⟩ | ⟨h1, h2, h3, h4, h5⟩
      · left
        refine ⟨e, he, ?_⟩
        rcases hef with rfl | rfl <;> rcases hfe with rfl | rfl <;> simp
      · right
        rcases hfe with rfl | rfl
        · exact ⟨h1, h2, h3, h4, h5⟩
        · exact ⟨h1, h2, h3, h4, .inr rfl⟩
    · right
      refine ⟨h1, h2, h3, ?_, h5⟩
      by_contra hc
      rw [Bool.not_eq_false] at hc
      rw [h.has hc] at h4
      cases h4

theorem Grown.see (ok : Nat → Nat → Prop) (iter : Int) (I : List GI) (i j : Nat) : Grown ok iter I (see iter I i j) := by
  refine ⟨fun e he => ?_, fun e' he' => ?_⟩
  · by_cases hc : e.is i j = true
    · exact .inr (List.mem_map.mpr ⟨e, he, by rw [if_pos hc]⟩)
    · exact .inl (List.mem_map.mpr ⟨e, he, by rw [if_neg hc]⟩)
  · obtain ⟨e, he, rfl⟩ := List.mem_map.mp he'
    left
    refine ⟨e, he, ?_⟩
    split
    · exact .inr rfl
    · exact .inl rfl

theorem Grown.app {ok : Nat → Nat → Prop} {iter : Int} {I : List GI} {i j : Nat} {s : Int} (hs : s = -1 ∨ s = iter) (hok : ok i j)
    (hij : i ≠ j) (hn : Grid.has I i j = false) : Grown ok iter I (I ++ [⟨i, j, false, s⟩]) := by
  refine ⟨fun e he => .inl (List.mem_append_left _ he), fun e' he' => ?_⟩
  rcases List.mem_append.mp he' with h | h
  · exact .inl ⟨e', h, .inl rfl⟩
  · rw [List.mem_singleton] at h
    subst h
    exact .inr ⟨rfl, hok, hij, hn, hs⟩

/-- the pair is known and every interaction for it was seen in this step -/
def Seen (iter : Int) (I : List GI) (i j : Nat) : Prop := has I i j = true ∧ ∀ e ∈ I, e.is i j = true → e.seen = iter

theorem seen_see {iter : Int} {I : List GI} {i j : Nat} (h : has I i j = true) : Seen iter (see iter I i j) i j := by
  refine ⟨by rw [has_see]; exact h, fun e he hi => ?_⟩
  obtain ⟨f, hf, rfl⟩ := List.mem_map.mp he
  by_cases hc : f.is i j = true
  · rw [if_pos hc]
  · rw [if_neg hc] at hi; exact absurd hi hc

theorem Grown.seen {ok : Nat → Nat → Prop} {iter : Int} {I I' : List GI} (h : Grown ok iter I I') {i j : Nat} (hs : Seen iter I i j) :
    Seen iter I' i j := by
  refine ⟨h.has hs.1, fun e' he' hi => ?_⟩
  rcases h.new e' he' with ⟨e, he, rfl | rfl⟩ | ⟨-, -, -, h4, -⟩
  · exact hs.2 _ he hi
  · rfl
  · exfalso
    rcases (is_iff _ _ _).mp hi with ⟨rfl, rfl⟩ | ⟨rfl, rfl⟩
    · rw [hs.1] at h4; cases h4
    · rw [has_comm, hs.1] at h4; cases h4

section
variable {R : Type}

/-- the two bodies exist and may collide -/
def May (avoid : Nat) (sub : Int) (bs : List (Option (GBody R))) (i j : Nat) : Prop :=
  ∃ a b, bs.getD i none = some a ∧ bs.getD j none = some b ∧ filter avoid sub a.flt b.flt = true

theorem May.symm {avoid : Nat} {sub : Int} {bs : List (Option (GBody R))} {i j : Nat} (h : May avoid sub bs i j) : May avoid sub bs j i := by
  obtain ⟨a, b, ha, hb, hf⟩ := h
  exact ⟨b, a, hb, ha, by rw [filter_comm]; exact hf⟩

variable (avoid : Nat) (sub : Int) (bs : List (Option (GBody R))) (iter : Int)

theorem pairStep_ok (i j : Nat) (I : List GI) (hi : (bs.getD i none).isSome) (hj : (bs.getD j none).isSome) :
    ∃ I', pairStep avoid sub bs iter i j I = .ok I' ∧ Grown (May avoid sub bs) iter I I' ∧
      (i ≠ j → May avoid sub bs i j → has I' i j = true) ∧ (i ≠ j → has I i j = true → Seen iter I' i j) := by
  unfold pairStep
  split
  · rename_i h
    exact ⟨I, rfl, .refl _ _ _, fun c => absurd h c, fun c => absurd h c⟩
  · rename_i hij
    split
    · rename_i hh
      exact ⟨_, rfl, .see _ _ _ _ _, fun _ _ => by rw [has_see]; exact hh, fun _ _ => seen_see hh⟩
    · rename_i hh
      obtain ⟨a, ha⟩ := Option.isSome_iff_exists.mp hi
      obtain ⟨b, hb⟩ := Option.isSome_iff_exists.mp hj
      unfold fltOf
      rw [ha, hb]
      simp only [Option.map_some, mayCollide, Res.bind_ok]
      refine ⟨_, rfl, ?_, ?_, fun _ h => absurd h hh⟩
      · split
        · rename_i hf
          exact .app (.inl rfl) ⟨a, b, ha, hb, hf⟩ hij (by simpa using hh)
        · exact .refl _ _ _
      · rintro - ⟨a', b', ha', hb', hf⟩
        rw [ha] at ha'; rw [hb] at hb'
        injection ha' with ha'; injection hb' with hb'
        subst ha' hb'
        rw [if_pos hf, has_append, Bool.or_eq_true]
        right
        simp [has, GI.is]

theorem pairsWith_ok (i : Nat) (hi : (bs.getD i none).isSome) : ∀ (js : List Nat) (I : List GI), (∀ j ∈ js, (bs.getD j none).isSome) →
    ∃ I', pairsWith avoid sub bs iter i js I = .ok I' ∧ Grown (May avoid sub bs) iter I I' ∧
      (∀ j ∈ js, i ≠ j → May avoid sub bs i j → has I' i j = true) ∧ (∀ j ∈ js, i ≠ j → has I i j = true → Seen iter I' i j)
  | [], I, _ => ⟨I, rfl, .refl _ _ _, (fun _ h => by cases h), (fun _ h => by cases h)⟩
  | j :: js, I, h => by
    obtain ⟨I1, e1, g1, a1, s1⟩ := pairStep_ok avoid sub bs iter i j I hi (h j (List.mem_cons_self ..))
    obtain ⟨I2, e2, g2, a2, s2⟩ := pairsWith_ok i hi js I1 fun j hj => h j (List.mem_cons_of_mem _ hj)
    refine ⟨I2, by unfold pairsWith; rw [e1, Res.bind_ok, e2], g1.trans g2, fun k hk hik hm => ?_, fun k hk hik hm => ?_⟩
    · rcases List.mem_cons.mp hk with rfl | hk
      · exact g2.has (a1 hik hm)
      · exact a2 k hk hik hm
    · rcases List.mem_cons.mp hk with rfl | hk
      · exact g2.seen (s1 hik hm)
      · exact s2 k hk hik (g1.has hm)

theorem cellPairs_ok : ∀ (l : List Nat) (I : List GI), (∀ j ∈ l, (bs.getD j none).isSome) →
    ∃ I', cellPairs avoid sub bs iter l I = .ok I' ∧ Grown (May avoid sub bs) iter I I' ∧
      (∀ i ∈ l, ∀ j ∈ l, i ≠ j → May avoid sub bs i j → has I' i j = true) ∧
      (∀ i ∈ l, ∀ j ∈ l, i ≠ j → has I i j = true → Seen iter I' i j)
  | [], I, _ => ⟨I, rfl, .refl _ _ _, (fun _ h => by cases h), (fun _ h => by cases h)⟩
  | i :: l, I, h => by
    have seen_comm : ∀ {I : List GI} {i j : Nat}, Seen iter I i j → Seen iter I j i := fun hs =>
      ⟨by rw [has_comm]; exact hs.1, fun e he hi => hs.2 e he (by rw [is_comm]; exact hi)⟩
    obtain ⟨I1, e1, g1, a1, s1⟩ := pairsWith_ok avoid sub bs iter i (h i (List.mem_cons_self ..)) l I
      fun j hj => h j (List.mem_cons_of_mem _ hj)
    obtain ⟨I2, e2, g2, a2, s2⟩ := cellPairs_ok l I1 fun j hj => h j (List.mem_cons_of_mem _ hj)
    refine ⟨I2, by unfold cellPairs; rw [e1, Res.bind_ok, e2], g1.trans g2, fun x hx y hy hxy hm => ?_, fun x hx y hy hxy hm => ?_⟩
    · rcases List.mem_cons.mp hx with rfl | hx' <;> rcases List.mem_cons.mp hy with rfl | hy'
      · exact absurd rfl hxy
      · exact g2.has (a1 y hy' hxy hm)
      · rw [has_comm]; exact g2.has (a1 x hx' hxy.symm hm.symm)
      · exact a2 x hx' y hy' hxy hm
    · rcases List.mem_cons.mp hx with rfl | hx' <;> rcases List.mem_cons.mp hy with rfl | hy'
      · exact absurd rfl hxy
      · exact g2.seen (s1 y hy' hxy hm)
      · exact seen_comm (g2.seen (s1 x hx' hxy.symm (by rw [has_comm]; exact hm)))
      · exact s2 x hx' y hy' hxy (g1.has hm)

variable [Field R] [LinearOrder R] [IsStrictOrderedRing R] [FloorRing R]

theorem collisions_ok (g : Cells R) : ∀ (ks : List Int) (I : List GI), (∀ k ∈ ks, ∀ j ∈ g.data k, (bs.getD j none).isSome) →
    ∃ I', collisions avoid sub bs iter g ks I = .ok I' ∧ Grown (May avoid sub bs) iter I I' ∧
      (∀ k ∈ ks, ∀ i ∈ g.data k, ∀ j ∈ g.data k, i ≠ j → May avoid sub bs i j → has I' i j = true) ∧
      (∀ k ∈ ks, ∀ i ∈ g.data k, ∀ j ∈ g.data k, i ≠ j → has I i j = true → Seen iter I' i j)
  | [], I, _ => ⟨I, rfl, .refl _ _ _, (fun _ h => by cases h), (fun _ h => by cases h)⟩
  | k :: ks, I, h => by
    obtain ⟨I1, e1, g1, a1, s1⟩ := cellPairs_ok avoid sub bs iter (g.data k) I (h k (List.mem_cons_self ..))
    obtain ⟨I2, e2, g2, a2, s2⟩ := collisions_ok g ks I1 fun j hj => h j (List.mem_cons_of_mem _ hj)
    refine ⟨I2, by unfold collisions; rw [e1, Res.bind_ok, e2], g1.trans g2, fun x hx i hi j hj hxy hm => ?_,
      fun x hx i hi j hj hxy hm => ?_⟩
    · rcases List.mem_cons.mp hx with rfl | hx
      · exact g2.has (a1 i hi j hj hxy hm)
      · exact a2 x hx i hi j hj hxy hm
    · rcases List.mem_cons.mp hx with rfl | hx
      · exact g2.seen (s1 i hi j hj hxy hm)
      · exact s2 x hx i hi j hj hxy (g1.has hm)

end

end Verif.Grid
