import Verif.Fac.Model
import Mathlib.Tactic.FieldSimp
import Mathlib.Tactic.NormNum

/-!
# Probing the collider: C174
-/
namespace Verif.Fac
open Verif.Mech
open scoped Classical

/-- The box of a body as it is now: that of the last run of the collider without its margin, moved along with the body. -/
def lower (C : Coll) (id : Nat) (B : Bod) (a : Fin 3) : ℝ := C.minima.getD (3 * id + a) 0 + B.sweep + (B.pos a - B.refPos a)

/-- The upper corner. -/
def upper (C : Coll) (id : Nat) (B : Bod) (a : Fin 3) : ℝ := C.maxima.getD (3 * id + a) 0 - B.sweep + (B.pos a - B.refPos a)

/-- Two boxes have a common point. -/
def Meet (lo hi mn mx : Fin 3 → ℝ) : Prop := ∀ a, lo a ≤ mx a ∧ mn a ≤ hi a

/-- The collider as a run leaves it: bounds sorted, the lower bound of each body with a bound listed with the coordinate stored. -/
structure Ready (C : Coll) : Prop where
  aperiodic : C.periodic = false
  sorted : C.bb0.Pairwise fun a b => a.coord ≤ b.coord
  room : ∀ b ∈ C.bb0, 3 * b.id + 3 ≤ C.minima.length ∧ 3 * b.id + 3 ≤ C.maxima.length
  coord : ∀ b ∈ C.bb0, b.isMin = true → b.hasBB = true → b.coord = C.minima.getD (3 * b.id) 0
  listed : ∀ id B, C.bodies id = some B → ∃ b ∈ C.bb0, b.id = id ∧ b.isMin = true ∧ b.hasBB = true

/-- No body has left its margin. -/
def Within (C : Coll) : Prop := ∀ id B, C.bodies id = some B → ∀ a, |B.pos a - B.refPos a| ≤ B.sweep

theorem readR_ok {l : List ℝ} {i : Nat} (h : i < l.length) : readR l i = .ok (l.getD i 0) := by
  rw [readR, List.getElem?_eq_getElem h, List.getD_eq_getElem?_getD, List.getElem?_eq_getElem h]; rfl

theorem read3_ok {l : List ℝ} {id : Nat} (h : 3 * id + 3 ≤ l.length) : read3 l id = .ok fun a => l.getD (3 * id + a) 0 := by
  rw [read3, readR_ok (by omega), Res.bind_ok, readR_ok (by omega), Res.bind_ok, readR_ok (by omega), Res.bind_ok]
  congr 1
  funext a
  fin_cases a <;> rfl

theorem apart_iff (lo hi : V3) (s : ℝ) (d mn mx : V3) : ¬ apart lo hi s d mn mx ↔ Meet (fun a => lo a + s + d a) (fun a => hi a - s + d a) mn mx := by
  rw [apart, Meet]
  push Not
  constructor
  · rintro ⟨h1, h2, h3, h4, h5, h6⟩ a
    fin_cases a
    · exact ⟨h2, h1⟩
    · exact ⟨h3, h4⟩
    · exact ⟨h5, h6⟩
  · intro h
    exact ⟨(h 0).2, (h 0).1, (h 1).1, (h 1).2, (h 2).1, (h 2).2⟩

theorem probeFrom_ok (C : Coll) (mn mx : V3) (l : List Bnd) (hs : l.Pairwise fun a b => a.coord ≤ b.coord)
    (hr : ∀ b ∈ l, 3 * b.id + 3 ≤ C.minima.length ∧ 3 * b.id + 3 ≤ C.maxima.length) :
    ∃ r, probeFrom C mn mx l = .ok r ∧ ∀ id, id ∈ r ↔ ∃ b ∈ l, b.coord ≤ mx 0 ∧ b.id = id ∧ b.isMin = true ∧ b.hasBB = true ∧
      ∃ B, C.bodies id = some B ∧ Meet (lower C id B) (upper C id B) mn mx := by
  induction l with
  | nil => exact ⟨[], rfl, by simp⟩
  | cons b t ih =>
    obtain ⟨r, h1, h2⟩ := ih (List.pairwise_cons.mp hs).2 (fun x hx => hr x (List.mem_cons_of_mem _ hx))
    have hb := (List.pairwise_cons.mp hs).1
    rw [probeFrom]
    split_ifs with hc hf
    · refine ⟨[], rfl, ?_⟩
      intro id
      constructor
      · intro h; simp at h
      · rintro ⟨x, hx, hx1, -⟩
        rcases List.mem_cons.mp hx with rfl | hx
        · linarith
        · linarith [hb x hx]
    · refine ⟨r, h1, ?_⟩
      intro id
      rw [h2]
      constructor
      · rintro ⟨x, hx, h⟩; exact ⟨x, List.mem_cons_of_mem _ hx, h⟩
      · rintro ⟨x, hx, h⟩
        rcases List.mem_cons.mp hx with rfl | hx
        · obtain ⟨-, -, g1, g2, -⟩ := h
          simp [g1, g2] at hf
        · exact ⟨x, hx, h⟩
    · simp only [not_or, not_not] at hf
      obtain ⟨f1, f2⟩ := hf
      cases hB : C.bodies b.id with
      | none =>
        refine ⟨r, h1, ?_⟩
        intro id
        rw [h2]
        constructor
        · rintro ⟨x, hx, h⟩; exact ⟨x, List.mem_cons_of_mem _ hx, h⟩
        · rintro ⟨x, hx, h⟩
          rcases List.mem_cons.mp hx with rfl | hx
          · obtain ⟨-, rfl, -, -, B, g, -⟩ := h
            rw [hB] at g; cases g
          · exact ⟨x, hx, h⟩
      | some B =>
        have hm := hr b (by simp)
        dsimp only
        rw [read3_ok hm.1, Res.bind_ok, read3_ok hm.2, Res.bind_ok]
        by_cases hap : apart (fun a => C.minima.getD (3 * b.id + a) 0) (fun a => C.maxima.getD (3 * b.id + a) 0) B.sweep (B.pos - B.refPos) mn mx
        · rw [if_neg (by simpa using hap)]
          refine ⟨r, h1, ?_⟩
          intro id
          rw [h2]
          constructor
          · rintro ⟨x, hx, h⟩; exact ⟨x, List.mem_cons_of_mem _ hx, h⟩
          · rintro ⟨x, hx, h⟩
            rcases List.mem_cons.mp hx with rfl | hx
            · obtain ⟨-, rfl, -, -, B', g, g'⟩ := h
              rw [hB] at g; cases g
              exact absurd hap ((apart_iff _ _ _ _ _ _).mpr g')
            · exact ⟨x, hx, h⟩
        · rw [if_pos hap, h1, Res.bind_ok]
          refine ⟨_, rfl, ?_⟩
          intro id
          rw [List.mem_cons, h2]
          constructor
          · rintro (rfl | ⟨x, hx, h⟩)
            · exact ⟨b, by simp, not_lt.mp hc, rfl, f1, f2, B, hB, (apart_iff _ _ _ _ _ _).mp hap⟩
            · exact ⟨x, List.mem_cons_of_mem _ hx, h⟩
          · rintro ⟨x, hx, h⟩
            rcases List.mem_cons.mp hx with rfl | hx
            · exact Or.inl h.2.1.symm
            · exact Or.inr ⟨x, hx, h⟩

/-- C174.  If no body has left its margin, probing a box gives exactly the bodies whose boxes, as they are now, meet it.  Missing: bodies that have
left their margin, see `C174_violated`. -/
theorem C174_probe_partial {C : Coll} (h : Ready C) (hw : Within C) (mn mx : V3) :
    ∃ r, probe C mn mx = .ok r ∧ ∀ id, id ∈ r ↔ ∃ B, C.bodies id = some B ∧ Meet (lower C id B) (upper C id B) mn mx := by
  obtain ⟨r, h1, h2⟩ := probeFrom_ok C mn mx C.bb0 h.sorted h.room
  refine ⟨r, by rw [probe, h.aperiodic, if_neg (by simp), h1], ?_⟩
  intro id
  rw [h2]
  constructor
  · rintro ⟨b, -, -, -, -, -, hB⟩; exact hB
  · rintro ⟨B, hB, hm⟩
    obtain ⟨b, hb, rfl, h3, h4⟩ := h.listed id B hB
    refine ⟨b, hb, ?_, rfl, h3, h4, B, hB, hm⟩
    rw [h.coord b hb h3 h4]
    have := (hm 0).1
    have := (abs_le.mp (hw _ B hB 0)).1
    simp only [lower, Fin.val_zero, Nat.add_zero] at *
    linarith

/-- Two unit balls with margin 1/2, at 0 and 10 on the x axis at the last run; the second has moved to `x`. -/
noncomputable def twoBalls (x : ℝ) : Coll where
  periodic := false
  bb0 := [⟨-1.5, 0, true, true⟩, ⟨1.5, 0, false, true⟩, ⟨8.5, 1, true, true⟩, ⟨11.5, 1, false, true⟩]
  minima := [-1.5, -1.5, -1.5, 8.5, -1.5, -1.5]
  maxima := [1.5, 1.5, 1.5, 11.5, 1.5, 1.5]
  bodies := fun i => if i = 0 then some ⟨0, 0, 0.5⟩ else if i = 1 then some ⟨![x, 0, 0], ![10, 0, 0], 0.5⟩ else none

theorem twoBalls_ready (x : ℝ) : Ready (twoBalls x) where
  aperiodic := rfl
  sorted := by norm_num [twoBalls]
  room := by simp [twoBalls]
  coord := by simp [twoBalls]
  listed := by
    intro id B h
    simp only [twoBalls] at h ⊢
    by_cases h0 : id = 0
    · exact ⟨⟨-1.5, 0, true, true⟩, by simp, h0.symm, rfl, rfl⟩
    · by_cases h1 : id = 1
      · exact ⟨⟨8.5, 1, true, true⟩, by simp, h1.symm, rfl, rfl⟩
      · simp [h0, h1] at h

theorem twoBalls_within {x : ℝ} (hx : |x - 10| ≤ 0.5) : Within (twoBalls x) := by
  intro id B h a
  simp only [twoBalls] at h
  by_cases h0 : id = 0
  · simp only [h0, if_true, Option.some.injEq] at h
    subst h; norm_num
  · by_cases h1 : id = 1
    · simp only [h1, if_true, Option.some.injEq, one_ne_zero, if_false] at h
      subst h
      fin_cases a
      · exact hx
      · norm_num
      · norm_num
    · simp [h0, h1] at h

/-- The second ball is found where it is now, though it was not there at the last run. -/
example : ∃ r, probe (twoBalls 9.6) ![8, -1, -1] ![8.7, 1, 1] = .ok r ∧ 1 ∈ r ∧ 0 ∉ r := by
  obtain ⟨r, h1, h2⟩ := C174_probe_partial (twoBalls_ready 9.6) (twoBalls_within (by norm_num [abs_of_neg])) ![8, -1, -1] ![8.7, 1, 1]
  refine ⟨r, h1, ?_, ?_⟩
  · rw [h2]
    refine ⟨⟨![9.6, 0, 0], ![10, 0, 0], 0.5⟩, by simp [twoBalls], ?_⟩
    intro a
    fin_cases a <;> norm_num [lower, upper, twoBalls]
  · rw [h2]
    rintro ⟨B, hB, h⟩
    simp only [twoBalls, if_true, Option.some.injEq] at hB
    subst hB
    have := (h 0).2
    norm_num [upper, twoBalls] at this

/-- C174 is violated by a body that was moved out of its margin: the ball is now at 5 and its box covers the box that is probed, but it is not found. -/
theorem C174_violated : probe (twoBalls 5) ![4.5, 0, 0] ![5.5, 0, 0] = .ok [] ∧ ∃ B, (twoBalls 5).bodies 1 = some B ∧ Meet (lower (twoBalls 5) 1 B) (upper (twoBalls 5) 1 B) ![4.5, 0, 0] ![5.5, 0, 0] := by
  constructor
  · have h1 : (8.5 : ℝ) > 5.5 := by norm_num
    have h2 : ¬ (1.5 : ℝ) > 5.5 := by norm_num
    have h3 : ¬ (-1.5 : ℝ) > 5.5 := by norm_num
    have h4 : apart (fun a => (twoBalls 5).minima.getD (3 * 0 + a) 0) (fun a => (twoBalls 5).maxima.getD (3 * 0 + a) 0) 0.5 ((0 : V3) - 0) ![4.5, 0, 0] ![5.5, 0, 0] := by
      left; norm_num [twoBalls]
    have hr : ∀ b ∈ (twoBalls 5).bb0, _ := (twoBalls_ready 5).room
    rw [probe, if_neg (by simp [twoBalls])]
    rw [show (twoBalls 5).bb0 = [⟨-1.5, 0, true, true⟩, ⟨1.5, 0, false, true⟩, ⟨8.5, 1, true, true⟩, ⟨11.5, 1, false, true⟩] from rfl]
    rw [probeFrom, if_neg (by simpa using h3), if_neg (by simp)]
    rw [show (twoBalls 5).bodies 0 = some ⟨0, 0, 0.5⟩ by simp [twoBalls]]
    dsimp only
    rw [read3_ok (by simp [twoBalls]), Res.bind_ok, read3_ok (by simp [twoBalls]), Res.bind_ok, if_neg (by simpa using h4), probeFrom, if_neg (by simpa using h2), if_pos (by simp), probeFrom, if_pos (by simpa using h1)]
  · refine ⟨⟨![5, 0, 0], ![10, 0, 0], 0.5⟩, by simp [twoBalls], ?_⟩
    intro a
    fin_cases a <;> norm_num [lower, upper, twoBalls]

end Verif.Fac
