import Verif.Stride.Props
/-!
# Cases meeting the hypotheses of the theorems of `Verif.Stride.Props`
-/
namespace Verif.Stride
open Verif Verif.Mech Matrix
open Verif.Peri (Cell)

theorem solo_only {cell : Option Cell} {sh : Shp} {vel angVel : V3} {verlet : ℝ} {G : M3} {bx : V3 × V3} (j : Nat) (b : Bod)
    (hb : (soloRun cell sh vel angVel verlet bx G).w.bodies j = some b) : j ∈ [0] := by
  by_cases e : j = 0
  · simp [e]
  · simp [soloRun, World.setBody, e, soloScn, exWorld] at hb

/-- hypotheses of `C107_next_partial`: a sphere at rest with margin 1 moved by a script to 10 -/
example : ∃ (s : Scn) (w' : World) (b' : Bod) (bd : BoundInfo), ClumpsOk s.w ∧ (∀ j b, s.w.bodies j = some b → j ∈ [0]) ∧
    Mech.action exParams [0] (movedTo 0 ![10, 0, 0] s).w = .ok w' ∧ Touched s.w 0 ∧ w'.bodies 0 = some b' ∧ b'.bound = some bd ∧
    b'.st.pos 0 ≠ bd.refPos 0 ∧ bd.sweepLength ≤ |b'.st.pos 0 - bd.refPos 0| := by
  obtain ⟨s, hs⟩ : ∃ s, s = soloRun none (.sphere 1) 0 0 1 (0, 0) := ⟨_, rfl⟩
  have hc : ClumpsOk s.w := by rw [hs]; exact solo_clumps
  have ho : ∀ j b, s.w.bodies j = some b → j ∈ [0] := by rw [hs]; exact solo_only
  have ht : Touched s.w 0 := by rw [hs]; exact solo_touched
  have hb0 : s.w.bodies 0 = some (soloBod 0 0 1) := by rw [hs]; simp [soloRun, World.setBody]
  have hb : (movedTo 0 ![10, 0, 0] s).w.bodies 0 = some { soloBod 0 0 1 with st := { (soloBod 0 0 1).st with pos := ![10, 0, 0] } } := by
    simp only [movedTo, if_true, hb0]; rfl
  have hsub : (movedTo 0 ![10, 0, 0] s).w.subdomain = (soloBod 0 0 1).subdomain := by rw [hs]; rfl
  have hper : (movedTo 0 ![10, 0, 0] s).w.periodic = false := by rw [hs]; rfl
  have hmr : (movedTo 0 ![10, 0, 0] s).w.moveRotUsed = false := by rw [hs]; rfl
  obtain ⟨w', h1, h2, -⟩ := foldl_single (P := exParams) hb rfl hsub rfl
  obtain ⟨s1, -⟩ := blocked_step (P := exParams) (D := (beforeLoop exParams (movedTo 0 ![10, 0, 0] s).w).deform)
    (I := (movedTo 0 ![10, 0, 0] s).w.extern 0 { soloBod 0 0 1 with st := { (soloBod 0 0 1).st with pos := ![10, 0, 0] } })
    (f := (movedTo 0 ![10, 0, 0] s).w.force 0) (m := (movedTo 0 ![10, 0, 0] s).w.torque 0) (s := { (soloBod 0 0 1).st with pos := ![10, 0, 0] }) rfl
    (Or.inl (by unfold World.deform; exact (beforeLoop_frame _ _).2.1.trans hper)) hmr rfl rfl
  dsimp only at h2
  generalize stepState exParams _ _ _ _ { (soloBod 0 0 1).st with pos := ![10, 0, 0] } = st' at h2 s1
  have hp : st'.pos = ![10, 0, 0] := by rw [s1]; simp [soloBod, exBod, exState, exParams]
  refine ⟨s, w', { soloBod 0 0 1 with st := st' }, ⟨0, 1⟩, hc, ho, h1, ht, by rw [h2]; simp, rfl, ?_, ?_⟩
  · simp [hp]
  · simp [hp]

/-- hypotheses of `C109_translate_partial`: a box with margin 1/10 displaced by 1/20 -/
example : ∃ (s s1 : Scn) (b b2 : Bod) (bd : BoundInfo), colliderAction s = .ok s1 ∧ s.cell = none ∧ (0 < s.enlarge → 1 ≤ s.enlarge) ∧ 0 < s.size ∧
    s.w.bodies 0 = some b ∧ s.bounded 0 = true ∧ s.shape 0 = some (.box ![2, 1, 1]) ∧
    (∃ b1, s1.w.bodies 0 = some b1 ∧ b2.st.ori = b1.st.ori ∧ b1.bound = some bd ∧ b2.st.pos ≠ b1.st.pos) ∧ Near b2 bd := by
  have hv : (0 : ℝ) < 1 / 10 := by norm_num
  have hbx : shapeBox (-1) none (.box ![2, 1, 1]) { exState dofAll 0 with angVel := 0 } =
      .ok (some ((0 : V3) - boxHalf ![2, 1, 1] Quat.one, 0 + boxHalf ![2, 1, 1] Quat.one)) := rfl
  have h := solo_collide (G := 0) hv hbx
  have h1 : isActivated (soloScn none (.box ![2, 1, 1]) 0 0 (1 / 10)) = true := by simp [isActivated, soloScn]
  unfold colliderTurn at h
  rw [h1, if_pos rfl] at h
  refine ⟨_, _, _, { soloBod 0 0 (1 / 10) with st := { (soloBod 0 0 (1 / 10)).st with pos := ![1 / 20, 0, 0] } }, ⟨0, 1 / 10⟩, h, rfl,
    fun h => absurd h (by norm_num [soloScn]), Nat.one_pos, rfl, rfl, rfl, ⟨soloBod 0 0 (1 / 10), rfl, rfl, rfl, ?_⟩, Or.inr ?_⟩
  · intro h; have := congrFun h 0; simp [soloBod, exBod, exState] at this
  · simp only [maxDisp, sub_zero]
    simp [abs_of_pos]; norm_num

/-- hypotheses of `C110_margin_partial`: a sphere of radius 1 with margin 1 that moved by 1/2, growing by one tenth -/
example : ∃ s, Reach s ∧ IsSphere s 0 1 ∧ ∃ b bd, s.w.bodies 0 = some b ∧ b.kind = .standalone ∧ b.bound = some bd ∧
    1 * (11 / 10 : ℝ) - 1 + maxDisp b bd ≤ bd.sweepLength := by
  have hbx : shapeBox (-1) none (.sphere 1) { exState dofAll ![1 / 2, 0, 0] with angVel := 0 } =
      .ok (some (sphereBox (-1) none 1 (exState dofAll ![1 / 2, 0, 0]).pos)) := rfl
  obtain ⟨w', b', h1, h2, -, h4, h5, h6, -⟩ := solo_newton (cell := none) (sh := .sphere 1) (vel := ![1 / 2, 0, 0]) (angVel := 0) (verlet := 1) (G := 0)
    (bx := sphereBox (-1) none 1 (exState dofAll ![1 / 2, 0, 0]).pos) one_pos (fun i => by fin_cases i <;> simp <;> norm_num [abs_of_pos])
  refine ⟨_, .step (.step (solo_init (cell := none) (fun c h => by cases h)) (.collider (by norm_num [soloScn]) (solo_collide one_pos hbx)))
    (.newton exParams [0] solo_clumps (by simp) solo_only h1), ⟨rfl, rfl⟩, b', _, h2, h6, h4, ?_⟩
  simp only [maxDisp, sub_zero, h5]
  simp [abs_of_pos]; norm_num

/-- hypotheses of `C111_fast_partial`: a cell whose first length went from 3 to 1 in a step of length 1 -/
example : ∃ (s : Scn) (w' : World), ClumpsOk s.w ∧ Mech.action exParams [0] s.w = .ok w' ∧ s.w.periodic = true ∧
    s.w.prevCellSize = some ![3, 1, 1] ∧ exParams.dt ≠ 0 ∧ |exParams.dt| ≤ |(![3, 1, 1] : V3) 0 - s.w.cell.size 0| := by
  obtain ⟨s, hs⟩ : ∃ s, s = soloRun (some (unitCell 1)) (.sphere 1) 0 0 1 (0, 0) := ⟨_, rfl⟩
  have hc : ClumpsOk s.w := by rw [hs]; exact solo_clumps
  have hb : { s.w with prevCellSize := some ![3, 1, 1] }.bodies 0 = some (soloBod 0 0 1) := by rw [hs]; simp [soloRun, World.setBody]
  obtain ⟨w', h1, -⟩ := foldl_single (P := exParams) hb rfl (by rw [hs]; rfl) rfl
  refine ⟨{ s with w := { s.w with prevCellSize := some ![3, 1, 1] } }, w', hc, h1, by rw [hs]; rfl, rfl, by simp [exParams], ?_⟩
  rw [hs]
  simp [exParams, soloRun, soloScn, World.setBody]; norm_num

end Verif.Stride
