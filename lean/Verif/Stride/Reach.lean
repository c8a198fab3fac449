import Verif.Stride.Lemmas
/-!
# Histories: steps of the integrator, turns of the collider and everything else
-/
namespace Verif.Stride
open Verif Verif.Mech Matrix
open Verif.Peri (Cell)

/-- a bounded body with a sphere as shape -/
def IsSphere (s : Scn) (j : Nat) (r : ℝ) : Prop := s.bounded j = true ∧ s.shape j = some (.sphere r)

/-- no cell, or one whose axes are those of the space -/
def Flat (cell : Option Cell) : Prop := ∀ c, cell = some c → c.hasShear = false ∧ c.unshear = 1

/-- a body keeps position, box and shape, and whether the integrator moves it -/
def Keeps (s s' : Scn) (j : Nat) (b' : Bod) : Prop :=
  ∃ b, s.w.bodies j = some b ∧ b'.st.pos = b.st.pos ∧ b'.bound = b.bound ∧ s'.shape j = s.shape j ∧ s'.bounded j = s.bounded j ∧
    s'.box j = s.box j ∧ (Touched s'.w j ↔ Touched s.w j)

/-- what may happen besides the integrator and the collider: other engines and scripts change forces, velocities, orientations, the
cell, parameters, clumps; bodies are added (which asks for a new sort, BodyContainer.cpp 23, 36) and erased.  Positions, radii and boxes
of bodies stay. -/
structure Other (s s' : Scn) : Prop where
  keeps : ∀ j b', s'.w.bodies j = some b' → Keeps s s' j b' ∨ (b'.bound = none ∧ s'.doSort = true)
  ids : ∀ j b', s'.w.bodies j = some b' → j < s'.size
  mv : s'.w.maxVelocitySq = s.w.maxVelocitySq ∨ s'.w.maxVelocitySq = 0
  stride : s'.strideActive = true → s.strideActive = true
  sort : s.doSort = true → s'.doSort = true
  flat : Flat s'.cell

/-- one event of a simulation -/
inductive Event : Scn → Scn → Prop
  | newton (P : Params) (order : List Nat) {s : Scn} {w' : World} (hw : ClumpsOk s.w) (hnd : order.Nodup)
      (hall : ∀ j b, s.w.bodies j = some b → j ∈ order) (h : Mech.action P order s.w = .ok w') : Event s { s with w := w' }
  | collider {s s' : Scn} (he : 0 < s.enlarge → 1 ≤ s.enlarge) (h : colliderTurn s = .ok s') : Event s s'
  | other {s s' : Scn} (h : Other s s') : Event s s'

/-- states of a simulation that began without boxes, with a new collider -/
inductive Reach : Scn → Prop
  | init {s : Scn} (hb : ∀ j b, s.w.bodies j = some b → b.bound = none ∧ j < s.size) (hs : s.strideActive = false) (hf : Flat s.cell) : Reach s
  | step {s s' : Scn} (h : Reach s) (e : Event s s') : Reach s'

/-! ## The bound dispatcher -/

/-- the stored box surrounds the sphere at the position where the box was made, with the margin -/
def BoxFits (s : Scn) (j : Nat) (r : ℝ) (bd : BoundInfo) : Prop :=
  ∀ i, (s.box j).1 i ≤ bd.refPos i - r - max bd.sweepLength 0 ∧ bd.refPos i + r + max bd.sweepLength 0 ≤ (s.box j).2 i

theorem swept_le (bx : V3 × V3) (l : ℝ) (i : Fin 3) : (swept bx l).1 i = bx.1 i - max l 0 ∧ (swept bx l).2 i = bx.2 i + max l 0 := by
  unfold swept
  split
  · rename_i h; rw [max_eq_left h.le]; exact ⟨rfl, rfl⟩
  · rename_i h; rw [max_eq_right (not_lt.mp h)]; exact ⟨(sub_zero _).symm, (add_zero _).symm⟩

theorem sphereBox_flat {e : ℝ} {cell : Option Cell} (hf : Flat cell) (r : ℝ) (pos : V3) (i : Fin 3) :
    (sphereBox e cell r pos).1 i = pos i - (if 0 < e then e else 1) * r ∧ (sphereBox e cell r pos).2 i = pos i + (if 0 < e then e else 1) * r := by
  unfold sphereBox sphereHalf unshearPt
  cases cell with
  | none => exact ⟨rfl, rfl⟩
  | some c =>
    obtain ⟨h1, h2⟩ := hf c rfl
    dsimp only
    rw [h1, h2, Matrix.one_mulVec]
    exact ⟨rfl, rfl⟩

theorem enlarged_ge {e r : ℝ} (he : 0 < e → 1 ≤ e) (hr : 0 ≤ r) : r ≤ (if 0 < e then e else 1) * r := by
  split
  · rename_i h; nlinarith [he h]
  · linarith

/-- what a body is apart from its box -/
def core (b : Bod) : State × Kind × Int × Bool × Bool × Bool := (b.st, b.kind, b.subdomain, b.isSubdomain, b.aspherical, b.maskCompatible)

/-- the dispatcher changes boxes only -/
structure BoundFrame (s s' : Scn) : Prop where
  bodies : ∀ j, (s'.w.bodies j).map core = (s.w.bodies j).map core
  world : s'.w = { s.w with bodies := s'.w.bodies }
  rest : s' = { s with w := s'.w, last := s'.last, box := s'.box }

theorem BoundFrame.refl (s : Scn) : BoundFrame s s := ⟨fun _ => rfl, rfl, rfl⟩

theorem BoundFrame.trans {a b c : Scn} (h : BoundFrame a b) (h' : BoundFrame b c) : BoundFrame a c := by
  refine ⟨fun j => (h'.bodies j).trans (h.bodies j), ?_, ?_⟩
  · rw [h'.world]; conv_lhs => rw [h.world]
  · rw [h'.rest]; conv_lhs => rw [h.rest]

theorem BoundFrame.some' {s s' : Scn} (h : BoundFrame s s') {j : Nat} {b' : Bod} (hb : s'.w.bodies j = some b') :
    ∃ b, s.w.bodies j = some b ∧ core b' = core b := by
  have := h.bodies j
  rw [hb] at this
  cases hb0 : s.w.bodies j with
  | none => rw [hb0] at this; simp at this
  | some b => rw [hb0] at this; exact ⟨b, rfl, by simpa using this⟩

theorem BoundFrame.some {s s' : Scn} (h : BoundFrame s s') {j : Nat} {b : Bod} (hb : s.w.bodies j = some b) :
    ∃ b', s'.w.bodies j = some b' ∧ core b' = core b := by
  have := h.bodies j
  rw [hb] at this
  cases hb0 : s'.w.bodies j with
  | none => rw [hb0] at this; simp at this
  | some b => rw [hb0] at this; exact ⟨b, rfl, by simpa using this⟩

theorem processBody_frame {id : Nat} {s s' : Scn} (h : processBody id s = .ok s') : BoundFrame s s' ∧
    ∀ j, j ≠ id → s'.w.bodies j = s.w.bodies j ∧ s'.box j = s.box j := by
  unfold processBody at h
  split at h
  · rename_i b sh hb _ _
    generalize shapeBox s.enlarge s.cell sh b.st = R at h
    rcases R with (_ | bx) | _ | _
    · injection h with h; subst h; exact ⟨.refl s, fun _ _ => ⟨rfl, rfl⟩⟩
    · injection h with h; subst h
      refine ⟨⟨fun j => ?_, rfl, rfl⟩, fun j hj => ⟨if_neg hj, if_neg hj⟩⟩
      dsimp only [World.setBody]
      by_cases e : j = id
      · subst e; rw [if_pos rfl, hb]; rfl
      · rw [if_neg e]
    · cases h
    · cases h
  · injection h with h; subst h; exact ⟨.refl s, fun _ _ => ⟨rfl, rfl⟩⟩

/-- after its turn the box of a sphere was made at its present position and fits -/
theorem processBody_sphere {id : Nat} {s s' : Scn} (h : processBody id s = .ok s') (hf : Flat s.cell) (he : 0 < s.enlarge → 1 ≤ s.enlarge)
    {r : ℝ} (hr : 0 ≤ r) (hs : IsSphere s id r) {b : Bod} (hb : s.w.bodies id = some b) :
    ∃ b' bd, s'.w.bodies id = some b' ∧ b'.bound = some bd ∧ bd.refPos = b'.st.pos ∧ BoxFits s' id r bd := by
  unfold processBody at h
  rw [hb, hs.1, hs.2] at h
  dsimp only [shapeBox] at h
  injection h with h; subst h
  refine ⟨_, _, if_pos rfl, rfl, rfl, fun i => ?_⟩
  dsimp only
  rw [if_pos rfl]
  obtain ⟨h1, h2⟩ := swept_le (sphereBox s.enlarge s.cell r b.st.pos) (newSweep s id b) i
  obtain ⟨h3, h4⟩ := sphereBox_flat (e := s.enlarge) hf r b.st.pos i
  have := enlarged_ge he hr
  rw [h1, h2, h3, h4]
  constructor <;> linarith

/-- all spheres of a list of ids have a box made here that fits -/
def Fresh (s : Scn) (ids : List Nat) : Prop :=
  ∀ j ∈ ids, ∀ r, 0 ≤ r → IsSphere s j r → ∀ b, s.w.bodies j = some b →
    ∃ bd, b.bound = some bd ∧ bd.refPos = b.st.pos ∧ BoxFits s j r bd

theorem isSphere_frame {s s' : Scn} (h : BoundFrame s s') {j : Nat} {r : ℝ} : IsSphere s' j r ↔ IsSphere s j r := by
  unfold IsSphere; rw [h.rest]

theorem boundLoop_fresh (ids : List Nat) {done : List Nat} {s s' : Scn} (h : boundLoop ids s = .ok s') (hf : Flat s.cell)
    (he : 0 < s.enlarge → 1 ≤ s.enlarge) (hd : Fresh s done) : BoundFrame s s' ∧ Fresh s' (ids ++ done) := by
  induction ids generalizing s done with
  | nil => injection h with h; subst h; exact ⟨.refl s, hd⟩
  | cons id ids ih =>
    unfold boundLoop at h
    cases h1 : processBody id s with
    | throws => rw [h1] at h; cases h
    | ub => rw [h1] at h; cases h
    | ok s1 =>
      rw [h1] at h
      simp only [Res.bind_ok] at h
      obtain ⟨hfr, hother⟩ := processBody_frame h1
      have hc : s1.cell = s.cell := by rw [hfr.rest]
      have hen : s1.enlarge = s.enlarge := by rw [hfr.rest]
      have hd1 : Fresh s1 (id :: done) := by
        intro j hj r hr hs b hb
        by_cases e : j = id
        · subst e
          obtain ⟨b0, hb0, -⟩ := hfr.some' hb
          obtain ⟨b', bd, hb', hbd, hp, hfit⟩ := processBody_sphere h1 hf he hr ((isSphere_frame hfr).mp hs) hb0
          rw [hb] at hb'; injection hb' with hb'; subst hb'
          exact ⟨bd, hbd, hp, hfit⟩
        · obtain ⟨o1, o2⟩ := hother j e
          rcases List.mem_cons.mp hj with e' | hj
          · exact absurd e' e
          · rw [o1] at hb
            obtain ⟨bd, hbd, hp, hfit⟩ := hd j hj r hr ((isSphere_frame hfr).mp hs) b hb
            refine ⟨bd, hbd, hp, fun i => ?_⟩
            rw [o2]; exact hfit i
      obtain ⟨hfr', hfresh⟩ := ih h (by rw [hc]; exact hf) (by rw [hen]; exact he) hd1
      refine ⟨hfr.trans hfr', fun j hj => hfresh j ?_⟩
      simp only [List.mem_append, List.mem_cons] at hj ⊢
      tauto

/-- a run of the collider leaves a fresh box on every sphere -/
theorem colliderAction_fresh {s s' : Scn} (h : colliderAction s = .ok s') (hf : Flat s.cell) (he : 0 < s.enlarge → 1 ≤ s.enlarge) :
    Fresh s' (List.range s.size) ∧ (∀ j, (s'.w.bodies j).map core = (s.w.bodies j).map core) ∧
      s'.w = { s.w with bodies := s'.w.bodies } ∧ s'.size = s.size ∧ s'.shape = s.shape ∧ s'.bounded = s.bounded ∧ s'.cell = s.cell ∧
      s'.nBB = s'.size ∧ s'.doSort = false ∧ s'.dirty = false := by
  unfold colliderAction at h
  dsimp only at h
  generalize hs0 : ({ s with doSort := false, nBB := s.size, verletDist := autoVerlet s, dirty := false } : Scn) = s0 at h
  cases h1 : boundLoop (List.range s.size) s0 with
  | throws => rw [h1] at h; cases h
  | ub => rw [h1] at h; cases h
  | ok s1 =>
    rw [h1] at h
    simp only [Res.bind_ok] at h
    obtain ⟨hfr, hfresh⟩ := boundLoop_fresh (List.range s.size) (done := []) h1 (by rw [← hs0]; exact hf) (by rw [← hs0]; exact he)
      (fun j hj => by cases hj)
    rw [List.append_nil] at hfresh
    have hw : s1.w = { s.w with bodies := s1.w.bodies } := by rw [hfr.world, ← hs0]
    have hb : ∀ j, (s1.w.bodies j).map core = (s.w.bodies j).map core := fun j => by rw [hfr.bodies j, ← hs0]
    have hr := hfr.rest
    rw [← hs0] at hr
    have key : ∀ s2 : Scn, s2 = s1 ∨ s2 = { s1 with hasNewton := true, strideActive := true } →
        Fresh s2 (List.range s.size) ∧ (∀ j, (s2.w.bodies j).map core = (s.w.bodies j).map core) ∧
      s2.w = { s.w with bodies := s2.w.bodies } ∧ s2.size = s.size ∧ s2.shape = s.shape ∧ s2.bounded = s.bounded ∧ s2.cell = s.cell ∧
      s2.nBB = s2.size ∧ s2.doSort = false ∧ s2.dirty = false := by
      rintro s2 (e | e)
      · subst e
        refine ⟨hfresh, hb, hw, ?_, ?_, ?_, ?_, ?_, ?_, ?_⟩ <;> rw [hr]
      · subst e
        refine ⟨hfresh, hb, hw, ?_, ?_, ?_, ?_, ?_, ?_, ?_⟩ <;> dsimp only <;> rw [hr]
    split at h
    · split at h
      · injection h with h; exact key _ (Or.inr h.symm)
      · cases h
    · injection h with h; exact key _ (Or.inl h.symm)

/-! ## The invariant -/

/-- what holds at any time -/
structure Inv (s : Scn) : Prop where
  ids : ∀ j b, s.w.bodies j = some b → j < s.size
  flat : Flat s.cell
  fits : ∀ j r b bd, 0 ≤ r → IsSphere s j r → s.w.bodies j = some b → b.bound = some bd → BoxFits s j r bd
  near : s.w.maxVelocitySq ≠ 0 → s.w.maxVelocitySq < 1 → ∀ j r b bd, 0 ≤ r → IsSphere s j r → s.w.bodies j = some b →
    b.bound = some bd → Touched s.w j → Near b bd
  still : ∀ j r b bd, 0 ≤ r → IsSphere s j r → s.w.bodies j = some b → b.bound = some bd → ¬ Touched s.w j → Near b bd
  known : s.strideActive = true → s.doSort = false → ∀ j r b, 0 ≤ r → IsSphere s j r → s.w.bodies j = some b → ∃ bd, b.bound = some bd

theorem near_self {b : Bod} {bd : BoundInfo} (h : bd.refPos = b.st.pos) : Near b bd := by
  left; unfold maxDisp; rw [h]; simp

theorem inv_newton {P : Params} {order : List Nat} {s : Scn} {w' : World} (hi : Inv s) (hw : ClumpsOk s.w) (hnd : order.Nodup)
    (hall : ∀ j b, s.w.bodies j = some b → j ∈ order) (h : Mech.action P order s.w = .ok w') : Inv { s with w := w' } := by
  obtain ⟨hs, hd, hrec, hun⟩ := newton_run hw hnd hall h
  have hbound : ∀ {j b'}, w'.bodies j = some b' → ∃ b, s.w.bodies j = some b ∧ b'.bound = b.bound := by
    intro j b' hb'
    obtain ⟨b, hb, hsig⟩ := hs.symm.some hb'
    exact ⟨b, hb, (congrArg (·.2.2.2.2.2) hsig).symm⟩
  have ht : ∀ j, Touched w' j ↔ Touched s.w j := fun j => ⟨fun h => h.congr hs.symm hd.symm, fun h => h.congr hs hd⟩
  refine ⟨fun j b' hb' => ?_, hi.flat, fun j r b' bd hr hsp hb' hbd => ?_, fun _ hlt j r b' bd hr hsp hb' hbd hto => ?_,
    fun j r b' bd hr hsp hb' hbd hto => ?_, fun hst hds j r b' hr hsp hb' => ?_⟩
  · obtain ⟨b, hb, -⟩ := hbound hb'; exact hi.ids j b hb
  · obtain ⟨b, hb, e⟩ := hbound hb'
    exact hi.fits j r b bd hr hsp hb (by rw [← e]; exact hbd)
  · obtain ⟨b1, hb1, hr1⟩ := hrec j ((ht j).mp hto)
    have hb' : w'.bodies j = some b' := hb'
    rw [hb'] at hb1; injection hb1 with hb1; subst hb1
    by_contra hn
    have := hr1 bd hbd hn
    dsimp only at hlt
    linarith
  · have hto' : ¬ Touched s.w j := fun h => hto ((ht j).mpr h)
    have hb' : w'.bodies j = some b' := hb'
    rw [hun j hto'] at hb'
    exact hi.still j r b' bd hr hsp hb' hbd hto'
  · obtain ⟨b, hb, e⟩ := hbound hb'
    rw [e]; exact hi.known hst hds j r b hr hsp hb

theorem touched_core {w w' : World} (hb : ∀ j, (w'.bodies j).map core = (w.bodies j).map core) (hd : w'.subdomain = w.subdomain) {j : Nat}
    (h : Touched w j) : Touched w' j := by
  have hsome : ∀ {i : Nat} {b : Bod}, w.bodies i = some b → ∃ b', w'.bodies i = some b' ∧ core b' = core b := by
    intro i b hbi
    have := hb i
    rw [hbi] at this
    cases hb0 : w'.bodies i with
    | none => rw [hb0] at this; simp at this
    | some b => rw [hb0] at this; exact ⟨b, rfl, by simpa using this⟩
  obtain ⟨id, b, hbi, ha, hf⟩ := h
  obtain ⟨b', hb', hc⟩ := hsome hbi
  have k1 : b'.kind = b.kind := congrArg (·.2.1) hc
  have k2 : b'.subdomain = b.subdomain := congrArg (·.2.2.1) hc
  have k3 : b'.isSubdomain = b.isSubdomain := congrArg (·.2.2.2.1) hc
  refine ⟨id, b', hb', ?_, ?_⟩
  · unfold World.active at ha ⊢; rw [k1, k2, k3, hd]; exact ha
  · rcases hf with e | ⟨b2, hb2, hm⟩
    · exact Or.inl e
    · rw [hbi] at hb2; injection hb2 with hb2; subst hb2
      exact Or.inr ⟨b', hb', by rw [k1]; exact hm⟩

theorem inv_collider {s s' : Scn} (hi : Inv s) (he : 0 < s.enlarge → 1 ≤ s.enlarge) (h : colliderTurn s = .ok s') : Inv s' := by
  unfold colliderTurn at h
  split at h
  · obtain ⟨hfr, hb, -, hsz, hsh, hbo, hce, -, hds, -⟩ := colliderAction_fresh h hi.flat he
    have hsome : ∀ {j b'}, s'.w.bodies j = some b' → ∃ b, s.w.bodies j = some b := by
      intro j b' hb'
      have := hb j
      rw [hb'] at this
      cases hb0 : s.w.bodies j with
      | none => rw [hb0] at this; simp at this
      | some b => exact ⟨b, rfl⟩
    have hlt : ∀ {j b'}, s'.w.bodies j = some b' → j ∈ List.range s.size := by
      intro j b' hb'
      obtain ⟨b, hb0⟩ := hsome hb'
      exact List.mem_range.mpr (hi.ids j b hb0)
    have key : ∀ j r b bd, 0 ≤ r → IsSphere s' j r → s'.w.bodies j = some b → b.bound = some bd → bd.refPos = b.st.pos ∧ BoxFits s' j r bd := by
      intro j r b bd hr hsp hbj hbd
      obtain ⟨bd', h1, h2, h3⟩ := hfr j (hlt hbj) r hr hsp b hbj
      rw [hbd] at h1; injection h1 with h1; subst h1; exact ⟨h2, h3⟩
    refine ⟨fun j b hbj => ?_, by rw [hce]; exact hi.flat, fun j r b bd hr hsp hbj hbd => (key j r b bd hr hsp hbj hbd).2,
      fun _ _ j r b bd hr hsp hbj hbd _ => near_self (key j r b bd hr hsp hbj hbd).1,
      fun j r b bd hr hsp hbj hbd _ => near_self (key j r b bd hr hsp hbj hbd).1, fun _ _ j r b hr hsp hbj => ?_⟩
    · rw [hsz]; exact List.mem_range.mp (hlt hbj)
    · obtain ⟨bd, h1, -⟩ := hfr j (hlt hbj) r hr hsp b hbj
      exact ⟨bd, h1⟩
  · injection h with h; subst h; exact hi

theorem inv_other {s s' : Scn} (hi : Inv s) (h : Other s s') : Inv s' := by
  have hold : ∀ {j r b' bd}, s'.w.bodies j = some b' → b'.bound = some bd → IsSphere s' j r → ∃ b, s.w.bodies j = some b ∧ b.bound = some bd ∧
      b'.st.pos = b.st.pos ∧ IsSphere s j r ∧ s'.box j = s.box j ∧ (Touched s'.w j ↔ Touched s.w j) := by
    intro j r b' bd hb' hbd hsp
    rcases h.keeps j b' hb' with ⟨b, k1, k2, k3, k4, k5, k6, k7⟩ | ⟨k, -⟩
    · exact ⟨b, k1, by rw [← k3]; exact hbd, k2, ⟨by rw [← k5]; exact hsp.1, by rw [← k4]; exact hsp.2⟩, k6, k7⟩
    · rw [k] at hbd; cases hbd
  have hnear : ∀ {b b' : Bod} {bd}, b'.st.pos = b.st.pos → Near b bd → Near b' bd := by
    intro b b' bd e hn; unfold Near maxDisp at *; rw [e]; exact hn
  refine ⟨h.ids, h.flat, fun j r b' bd hr hsp hb' hbd => ?_, fun h0 h1 j r b' bd hr hsp hb' hbd ht => ?_,
    fun j r b' bd hr hsp hb' hbd ht => ?_, fun hst hds j r b' hr hsp hb' => ?_⟩
  · obtain ⟨b, k1, k2, -, k4, k5, -⟩ := hold hb' hbd hsp
    have := hi.fits j r b bd hr k4 k1 k2
    unfold BoxFits at *; rw [k5]; exact this
  · obtain ⟨b, k1, k2, k3, k4, -, k6⟩ := hold hb' hbd hsp
    rcases h.mv with e | e
    · rw [e] at h0 h1
      exact hnear k3 (hi.near h0 h1 j r b bd hr k4 k1 k2 (k6.mp ht))
    · exact absurd e h0
  · obtain ⟨b, k1, k2, k3, k4, -, k6⟩ := hold hb' hbd hsp
    exact hnear k3 (hi.still j r b bd hr k4 k1 k2 (fun h => ht (k6.mpr h)))
  · rcases h.keeps j b' hb' with ⟨b, k1, -, k3, k4, k5, -, -⟩ | ⟨-, k⟩
    · rw [k3]
      refine hi.known (h.stride hst) ?_ j r b hr ⟨by rw [← k5]; exact hsp.1, by rw [← k4]; exact hsp.2⟩ k1
      cases hh : s.doSort with
      | false => rfl
      | true => rw [h.sort hh] at hds; cases hds
    · rw [k] at hds; cases hds

theorem reach_inv {s : Scn} (h : Reach s) : Inv s := by
  induction h with
  | init hb hs hf =>
    exact ⟨fun j b h => (hb j b h).2, hf, fun j r b bd _ _ h1 h2 => (by rw [(hb j b h1).1] at h2; cases h2),
      fun _ _ j r b bd _ _ h1 h2 => (by rw [(hb j b h1).1] at h2; cases h2), fun j r b bd _ _ h1 h2 => (by rw [(hb j b h1).1] at h2; cases h2),
      fun h => (by rw [hs] at h; cases h)⟩
  | step _ e ih =>
    cases e with
    | newton P order hw hnd hall h => exact inv_newton ih hw hnd hall h
    | collider he h => exact inv_collider ih he h
    | other h => exact inv_other ih h

theorem isActivated_false {s : Scn} (h : isActivated s = false) : s.strideActive = true ∧ s.hasNewton = true ∧ s.w.maxVelocitySq < 1 ∧
    s.w.maxVelocitySq ≠ 0 ∧ s.nBB = s.size ∧ s.dirty = false ∧ s.doSort = false := by
  unfold isActivated at h
  split_ifs at h with h1 h2 h3 h4 h5
  push Not at h3
  exact ⟨by simpa using h1, by simpa using h2, h3.1, h3.2, by simpa using h4, by simpa using h5, h⟩

end Verif.Stride
