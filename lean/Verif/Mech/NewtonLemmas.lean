import Verif.Mech.Newton
import Mathlib.Data.List.Perm.Basic
import Mathlib.Data.List.Nodup
import Mathlib.Tactic.Push

/-!
# The loop over the bodies in closed form

On scenes whose clumps list existing members, one iteration of the loop is the total function
`actPure`; iterations for different bodies commute.
-/
namespace Verif.Mech

/-- Every clump lists each member once, members exist and know their clump (the clump bookkeeping
of the `Bodies` model, `Verif.Bodies`). -/
def ClumpsOk (w : World) : Prop :=
  ∀ id b ms, w.bodies id = some b → b.kind = .clump ms →
    (ms.map Prod.fst).Nodup ∧ ∀ k ∈ ms.map Prod.fst, ∃ bk, w.bodies k = some bk ∧ bk.kind = .member id

/-- The members of a body. -/
def Kind.members : Kind → List (Nat × Se3)
  | .clump ms => ms
  | _ => []

/-- Whether a body is a clump member. -/
def Kind.isMember : Kind → Prop
  | .member _ => True
  | _ => False

instance : DecidablePred Kind.isMember := fun k => by cases k <;> simp only [Kind.isMember] <;> infer_instance

/-- Whether the integrator moves the body itself. -/
def World.active (w : World) (b : Bod) : Prop :=
  ¬ b.kind.isMember ∧ w.subdomain = b.subdomain ∧ b.isSubdomain = false

instance (w : World) (b : Bod) : Decidable (w.active b) := by unfold World.active; infer_instance

/-- What a body with a box contributes to the maximum. -/
noncomputable def bump (m : ℝ) (b : Bod) : ℝ :=
  match b.bound with
  | none => m
  | some bd =>
    max m (if max |(b.st.pos - bd.refPos) 0| (max |(b.st.pos - bd.refPos) 1| |(b.st.pos - bd.refPos) 2|) = 0 ∨
        max |(b.st.pos - bd.refPos) 0| (max |(b.st.pos - bd.refPos) 1| |(b.st.pos - bd.refPos) 2|)
          < bd.sweepLength then 0.5 else 2)

theorem bump_comm (m : ℝ) (a b : Bod) : bump (bump m a) b = bump (bump m b) a := by
  unfold bump
  cases a.bound <;> cases b.bound <;> simp only []
  exact max_right_comm _ _ _

instance : RightCommutative bump := ⟨bump_comm⟩

theorem saveMax_eq (b : Bod) (w : World) :
    saveMaximaDisplacement b w = { w with maxVelocitySq := bump w.maxVelocitySq b } := by
  unfold saveMaximaDisplacement bump
  cases b.bound <;> rfl

/-- Resultant force and moment about `c` of the listed members. -/
def resF (w : World) (ms : List (Nat × Se3)) : V3 := (ms.map fun m => w.force m.1).sum

/-- Resultant moment about `c` of the listed members. -/
def resT (w : World) (c : V3) (ms : List (Nat × Se3)) : V3 :=
  (ms.map fun m => match w.bodies m.1 with
    | none => 0
    | some b => w.torque m.1 + cross (b.st.pos - c) (w.force m.1)).sum

theorem addForce_eq (w : World) (c : V3) (ms : List (Nat × Se3))
    (h : ∀ k ∈ ms.map Prod.fst, ∃ bk, w.bodies k = some bk) (F T : V3) :
    addForceTorqueFromMembers w c ms F T = .ok (F + resF w ms, T + resT w c ms) := by
  induction ms generalizing F T with
  | nil => simp [addForceTorqueFromMembers, resF, resT]
  | cons a ms ih =>
    obtain ⟨id, rel⟩ := a
    obtain ⟨bk, hk⟩ := h id (by simp)
    simp only [addForceTorqueFromMembers, hk]
    rw [ih (fun k hk => h k (by simp only [List.map_cons, List.mem_cons]; exact Or.inr hk))]
    simp only [resF, resT, List.map_cons, List.sum_cons, hk, add_assoc]

/-- The body a member becomes. -/
def movedMember (c : State) (rel : Se3) (b : Bod) : Bod := { b with st := memberState c rel b.st }

/-- The new bodies of the listed members. -/
def movedList (c : State) (w : World) (ms : List (Nat × Se3)) : List Bod :=
  ms.filterMap fun m => (w.bodies m.1).map (movedMember c m.2)

theorem moveMembers_eq (c : State) (ms : List (Nat × Se3)) (w : World)
    (hnd : (ms.map Prod.fst).Nodup) (h : ∀ k ∈ ms.map Prod.fst, ∃ bk, w.bodies k = some bk) :
    moveMembers c ms w = .ok { w with
      bodies := fun j => match ms.lookup j with
        | none => w.bodies j
        | some rel => (w.bodies j).map (movedMember c rel),
      maxVelocitySq := (movedList c w ms).foldl bump w.maxVelocitySq } := by
  induction ms generalizing w with
  | nil => simp [moveMembers, movedList]
  | cons a ms ih =>
    obtain ⟨id, rel⟩ := a
    obtain ⟨bk, hk⟩ := h id (by simp)
    simp only [List.map_cons, List.nodup_cons] at hnd
    have hne : ∀ m ∈ ms, m.1 ≠ id := fun m hm e => hnd.1 (by
      rw [← e]; exact List.mem_map_of_mem hm)
    simp only [moveMembers, hk]
    rw [saveMax_eq, ih _ hnd.2 ?_]
    · have hb : ∀ m ∈ ms, (if m.1 = id then some (movedMember c rel bk) else w.bodies m.1) =
          w.bodies m.1 := fun m hm => if_neg (hne m hm)
      have hml : movedList c { (w.setBody id (movedMember c rel bk)) with
          maxVelocitySq := bump w.maxVelocitySq (movedMember c rel bk) } ms = movedList c w ms := by
        unfold movedList World.setBody
        apply List.filterMap_congr
        intro m hm
        simp only [hb m hm]
      have hml' : movedList c w ((id, rel) :: ms) = movedMember c rel bk :: movedList c w ms := by
        simp [movedList, hk]
      congr 1
      rw [hml']
      simp only [List.foldl_cons]
      unfold World.setBody movedMember at *
      simp only [World.mk.injEq, true_and]
      refine ⟨?_, ?_⟩
      · funext j
        rw [List.lookup_cons]
        by_cases hj : j = id
        · subst hj
          have hl : ms.lookup j = none := by
            rw [List.lookup_eq_none_iff]
            intro p hp
            simpa using fun e => hne p hp e.symm
          simp [hl, hk]
        · have : (j == id) = false := by simpa using hj
          rw [this]
          simp only [if_neg hj]
      · exact congrArg (List.foldl bump _) hml
    · intro k hk'
      by_cases e : k = id
      · exact ⟨movedMember c rel bk, by simp only [World.setBody, e, if_true, movedMember]⟩
      · obtain ⟨b', hb'⟩ := h k (by simp only [List.map_cons, List.mem_cons]; exact Or.inr hk')
        exact ⟨b', by simp only [World.setBody, if_neg e, hb']⟩

/-- Force and torque used for a body. -/
def totalF (w : World) (id : Nat) (b : Bod) : V3 := w.force id + resF w b.kind.members
/-- Force and torque used for a body. -/
def totalT (w : World) (id : Nat) (b : Bod) : V3 := w.torque id + resT w b.st.pos b.kind.members

/-- The body an active body becomes. -/
noncomputable def stepped (P : Params) (D : Deform) (w : World) (id : Nat) (b : Bod) : Bod :=
  { b with st := stepState P D (w.extern id b) (totalF w id b) (totalT w id b) b.st }

/-- One iteration of the loop as a total function. -/
noncomputable def actPure (P : Params) (D : Deform) (id : Nat) (w : World) : World :=
  match w.bodies id with
  | none => w
  | some b =>
    if w.active b then
      { w with
        bodies := fun j =>
          if j = id then some (stepped P D w id b)
          else match b.kind.members.lookup j with
            | none => w.bodies j
            | some rel => (w.bodies j).map (movedMember (stepped P D w id b).st rel)
        force := fun j => if j = id then totalF w id b else w.force j
        torque := fun j => if j = id then totalT w id b else w.torque j
        maxVelocitySq := (stepped P D w id b ::
          movedList (stepped P D w id b).st w b.kind.members).foldl bump w.maxVelocitySq }
    else w

theorem lookup_mem {ms : List (Nat × Se3)} {j : Nat} {rel : Se3} (h : ms.lookup j = some rel) :
    (j, rel) ∈ ms := by
  induction ms with
  | nil => simp at h
  | cons a ms ih =>
    rw [List.lookup_cons] at h
    by_cases e : j = a.1
    · subst e
      simp only [beq_self_eq_true] at h
      rw [← Option.some.inj h]
      exact List.mem_cons_self
    · have : (j == a.1) = false := by simpa using e
      rw [this] at h
      exact List.mem_cons_of_mem _ (ih h)

theorem lookup_none {ms : List (Nat × Se3)} {j : Nat} (h : j ∉ ms.map Prod.fst) :
    ms.lookup j = none := by
  rw [List.lookup_eq_none_iff]
  intro p hp
  have : j ≠ p.1 := fun e => h (by rw [e]; exact List.mem_map_of_mem hp)
  simpa using this

theorem lookup_of_mem {ms : List (Nat × Se3)} (hnd : (ms.map Prod.fst).Nodup) {j : Nat} {rel : Se3}
    (h : (j, rel) ∈ ms) : ms.lookup j = some rel := by
  induction ms with
  | nil => simp at h
  | cons a ms ih =>
    simp only [List.map_cons, List.nodup_cons] at hnd
    rw [List.lookup_cons]
    rcases List.mem_cons.mp h with e | h'
    · rw [← e]; simp
    · have : j ≠ a.1 := fun e => hnd.1 (by rw [← e]; exact List.mem_map_of_mem (f := Prod.fst) h')
      have : (j == a.1) = false := by simpa using this
      rw [this]
      exact ih hnd.2 h'

theorem extern_ft (w : World) (f t : Nat → V3) (id : Nat) (b : Bod) :
    ({ w with force := f, torque := t } : World).extern id b = w.extern id b := rfl

theorem actBody_eq (P : Params) (D : Deform) (id : Nat) (w : World) (hw : ClumpsOk w) :
    actBody P D id w = .ok (actPure P D id w) := by
  unfold actBody actPure
  cases hb : w.bodies id with
  | none => rfl
  | some b =>
    by_cases ha : w.active b
    · have hor : ¬ (w.subdomain ≠ b.subdomain ∨ b.isSubdomain = true) := by
        rintro (h | h)
        · exact h ha.2.1
        · rw [ha.2.2] at h; cases h
      simp only [if_pos ha, if_neg hor]
      cases hk : b.kind with
      | member c => exact absurd (show b.kind.isMember by rw [hk]; trivial) ha.1
      | standalone =>
        have hst : ({ b with st := stepState P D (w.extern id b) (w.force id) (w.torque id) b.st } : Bod) =
            stepped P D w id b := by
          simp [stepped, totalF, totalT, resF, resT, hk, Kind.members]
        rw [hk] at hst
        simp only [saveMax_eq, World.setBody, Kind.members, movedList, List.filterMap_nil,
          List.foldl_cons, List.foldl_nil, List.lookup_nil]
        congr 1
        have e1 : totalF w id b = w.force id := by simp [totalF, resF, hk, Kind.members]
        have e2 : totalT w id b = w.torque id := by simp [totalT, resT, hk, Kind.members]
        rw [hst, e1, e2]
        congr 1
        · funext j; split_ifs with e
          · rw [e]
          · rfl
        · funext j; split_ifs with e
          · rw [e]
          · rfl
      | clump ms =>
        obtain ⟨hnd, hm⟩ := hw id b ms hb hk
        have hid : id ∉ ms.map Prod.fst := by
          intro h
          obtain ⟨bk, h1, h2⟩ := hm id h
          rw [hb] at h1
          rw [← Option.some.inj h1, hk] at h2
          cases h2
        have hne : ∀ m ∈ ms, m.1 ≠ id := fun m hmm e => hid (by
          rw [← e]; exact List.mem_map_of_mem hmm)
        simp only
        rw [addForce_eq w _ ms (fun k hk => let ⟨bk, h, _⟩ := hm k hk; ⟨bk, h⟩)]
        simp only [zero_add, if_true]
        rw [saveMax_eq, moveMembers_eq _ _ _ hnd]
        · congr 1
          have hst : ∀ e : Extern, e = w.extern id b →
              ({ b with st := stepState P D e (w.force id + resF w ms) (w.torque id + resT w b.st.pos ms) b.st } : Bod) =
              stepped P D w id b := by
            rintro e rfl
            simp [stepped, totalF, totalT, hk, Kind.members]
          rw [hk] at hst
          have hst' : stepState P D (w.extern id b) (w.force id + resF w ms) (w.torque id + resT w b.st.pos ms) b.st =
              (stepped P D w id b).st := by
            simp [stepped, totalF, totalT, hk, Kind.members]
          simp only [extern_ft, hst _ rfl]
          simp only [hst']
          have hmv : ∀ m' ∈ ms, (if m'.1 = id then some (stepped P D w id b) else w.bodies m'.1) =
              w.bodies m'.1 := fun m hmm => if_neg (hne m hmm)
          have hml : ∀ w' : World, (w'.bodies = fun j => if j = id then some (stepped P D w id b) else w.bodies j) →
              movedList (stepped P D w id b).st w' ms = movedList (stepped P D w id b).st w ms := by
            intro w' hw'
            unfold movedList
            apply List.filterMap_congr
            intro m hmm
            rw [hw']
            simp only [hmv m hmm]
          unfold World.setBody
          simp only [World.mk.injEq, true_and, List.foldl_cons]
          refine ⟨?_, ?_, ?_, ?_⟩
          · funext j
            by_cases e : j = id
            · subst e
              simp only [lookup_none hid, if_true, Kind.members]
            · simp only [if_neg e]
              rfl
          · funext j
            simp only [totalF, hk, Kind.members]
            split_ifs with e
            · rw [e]
            · rfl
          · funext j
            simp only [totalT, hk, Kind.members]
            split_ifs with e
            · rw [e]
            · rfl
          · rw [hml _ rfl]
            rfl
        · intro k hk'
          obtain ⟨bk, h1, _⟩ := hm k hk'
          have : k ≠ id := fun e => hid (e ▸ hk')
          exact ⟨bk, by simp only [World.setBody, if_neg this, h1]⟩
    · simp only [if_neg ha]
      cases hk : b.kind with
      | member c => rfl
      | standalone =>
        have : w.subdomain ≠ b.subdomain ∨ b.isSubdomain = true := by
          by_cases e : w.subdomain = b.subdomain
          · right; simpa using fun e' => ha ⟨by rw [hk]; exact fun h => h, e, e'⟩
          · exact Or.inl e
        simp only [if_pos this]
      | clump ms =>
        have : w.subdomain ≠ b.subdomain ∨ b.isSubdomain = true := by
          by_cases e : w.subdomain = b.subdomain
          · right; simpa using fun e' => ha ⟨by rw [hk]; exact fun h => h, e, e'⟩
          · exact Or.inl e
        simp only [if_pos this]

/-! ## What an iteration leaves alone -/

theorem actPure_frame (P : Params) (D : Deform) (id : Nat) (w : World) :
    (actPure P D id w).subdomain = w.subdomain ∧ (actPure P D id w).moveRotUsed = w.moveRotUsed ∧
    (actPure P D id w).move = w.move ∧ (actPure P D id w).rot = w.rot ∧
    (actPure P D id w).periodic = w.periodic ∧ (actPure P D id w).cell = w.cell ∧
    (actPure P D id w).prevVelGrad = w.prevVelGrad ∧
    (actPure P D id w).prevCellSize = w.prevCellSize := by
  unfold actPure
  cases w.bodies id with
  | none => simp
  | some b => by_cases h : w.active b <;> simp [h]

/-- The bodies an iteration may change. -/
def World.footprint (w : World) (id : Nat) (j : Nat) : Prop :=
  j = id ∨ ∃ b, w.bodies id = some b ∧ j ∈ b.kind.members.map Prod.fst

theorem actPure_outside (P : Params) (D : Deform) (id : Nat) (w : World) {j : Nat}
    (h : ¬ w.footprint id j) : (actPure P D id w).bodies j = w.bodies j ∧
      (actPure P D id w).force j = w.force j ∧ (actPure P D id w).torque j = w.torque j := by
  have h1 : j ≠ id := fun e => h (Or.inl e)
  unfold actPure
  cases hb : w.bodies id with
  | none => simp
  | some b =>
    by_cases ha : w.active b
    · have : b.kind.members.lookup j = none := lookup_none fun hm => h (Or.inr ⟨b, hb, hm⟩)
      simp [ha, h1, this]
    · simp [ha]

/-- Everything of a body except its state. -/
def Bod.sig (b : Bod) : Kind × Int × Bool × Bool × Bool × Option BoundInfo :=
  (b.kind, b.subdomain, b.isSubdomain, b.aspherical, b.maskCompatible, b.bound)

theorem actPure_sig (P : Params) (D : Deform) (id : Nat) (w : World) (j : Nat) :
    ((actPure P D id w).bodies j).map Bod.sig = (w.bodies j).map Bod.sig := by
  unfold actPure
  cases hb : w.bodies id with
  | none => rfl
  | some b =>
    by_cases ha : w.active b
    · simp only [if_pos ha]
      by_cases e : j = id
      · subst e; simp [hb, stepped, Bod.sig]
      · simp only [if_neg e]
        cases b.kind.members.lookup j with
        | none => rfl
        | some rel => cases w.bodies j <;> simp [movedMember, Bod.sig]
    · simp [ha]

/-- Scenes with the same bodies up to their states. -/
def SameSig (w w' : World) : Prop := ∀ j, (w'.bodies j).map Bod.sig = (w.bodies j).map Bod.sig

theorem SameSig.some {w w' : World} (h : SameSig w w') {j : Nat} {b : Bod} (hb : w.bodies j = some b) :
    ∃ b', w'.bodies j = some b' ∧ b'.sig = b.sig := by
  have := h j
  rw [hb] at this
  cases h' : w'.bodies j with
  | none => rw [h'] at this; simp at this
  | some b' => rw [h'] at this; exact ⟨b', rfl, by simpa using this⟩

theorem SameSig.symm {w w' : World} (h : SameSig w w') : SameSig w' w := fun j => (h j).symm

theorem sig_kind {b b' : Bod} (h : b'.sig = b.sig) : b'.kind = b.kind := congrArg (·.1) h

theorem ClumpsOk.of_sig {w w' : World} (hw : ClumpsOk w) (h : SameSig w w') : ClumpsOk w' := by
  intro id b ms hb hk
  obtain ⟨b0, hb0, hs⟩ := h.symm.some hb
  obtain ⟨h1, h2⟩ := hw id b0 ms hb0 (by rw [sig_kind hs, hk])
  refine ⟨h1, fun k hkm => ?_⟩
  obtain ⟨bk, hbk, hkk⟩ := h2 k hkm
  obtain ⟨bk', hbk', hs'⟩ := h.some hbk
  exact ⟨bk', hbk', by rw [sig_kind hs', hkk]⟩

theorem actPure_clumpsOk (P : Params) (D : Deform) (id : Nat) {w : World} (hw : ClumpsOk w) :
    ClumpsOk (actPure P D id w) := hw.of_sig (actPure_sig P D id w)

theorem members_of_clump {w : World} (hw : ClumpsOk w) {id : Nat} {b : Bod} (hb : w.bodies id = some b)
    {k : Nat} (hk : k ∈ b.kind.members.map Prod.fst) :
    ∃ bk, w.bodies k = some bk ∧ bk.kind = .member id := by
  cases hkd : b.kind with
  | standalone => rw [hkd] at hk; simp [Kind.members] at hk
  | member c => rw [hkd] at hk; simp [Kind.members] at hk
  | clump ms => rw [hkd] at hk; exact (hw id b ms hb hkd).2 k hk

/-- Footprints of two different bodies that are not clump members do not meet. -/
theorem footprint_disjoint {w : World} (hw : ClumpsOk w) {i j : Nat} (hij : i ≠ j) {bi bj : Bod}
    (hi : w.bodies i = some bi) (hj : w.bodies j = some bj) (mi : ¬ bi.kind.isMember)
    (mj : ¬ bj.kind.isMember) {k : Nat} (hki : w.footprint i k) : ¬ w.footprint j k := by
  rintro (rfl | ⟨b, hb, hkb⟩)
  · rcases hki with rfl | ⟨b', hb', hkb'⟩
    · exact hij rfl
    · obtain ⟨bk, h1, h2⟩ := members_of_clump hw hb' hkb'
      rw [hj] at h1
      rw [Option.some.inj h1, h2] at mj
      exact mj trivial
  · obtain ⟨bk, h1, h2⟩ := members_of_clump hw hb hkb
    rcases hki with rfl | ⟨b', hb', hkb'⟩
    · rw [hi] at h1
      rw [Option.some.inj h1, h2] at mi
      exact mi trivial
    · obtain ⟨bk', h1', h2'⟩ := members_of_clump hw hb' hkb'
      rw [h1] at h1'
      rw [← Option.some.inj h1', h2] at h2'
      injection h2' with e
      exact hij e.symm

/-- The step of a body depends only on its footprint. -/
theorem stepped_congr (P : Params) (D : Deform) {w w' : World} {id : Nat} {b : Bod}
    (hf : ∀ j, (j = id ∨ j ∈ b.kind.members.map Prod.fst) →
      w'.bodies j = w.bodies j ∧ w'.force j = w.force j ∧ w'.torque j = w.torque j)
    (h1 : w'.moveRotUsed = w.moveRotUsed) (h2 : w'.move = w.move) (h3 : w'.rot = w.rot) :
    stepped P D w' id b = stepped P D w id b ∧ totalF w' id b = totalF w id b ∧
      totalT w' id b = totalT w id b := by
  have hF : totalF w' id b = totalF w id b := by
    unfold totalF resF
    rw [(hf id (Or.inl rfl)).2.1]
    congr 2
    apply List.map_congr_left
    intro m hm
    exact (hf m.1 (Or.inr (List.mem_map_of_mem hm))).2.1
  have hT : totalT w' id b = totalT w id b := by
    unfold totalT resT
    rw [(hf id (Or.inl rfl)).2.2]
    congr 2
    apply List.map_congr_left
    intro m hm
    obtain ⟨e1, e2, e3⟩ := hf m.1 (Or.inr (List.mem_map_of_mem hm))
    rw [e1, e2, e3]
  refine ⟨?_, hF, hT⟩
  unfold stepped World.extern
  rw [hF, hT, h1, h2, h3]

theorem movedList_congr (c : State) {w w' : World} {ms : List (Nat × Se3)}
    (hf : ∀ j ∈ ms.map Prod.fst, w'.bodies j = w.bodies j) :
    movedList c w' ms = movedList c w ms := by
  unfold movedList
  apply List.filterMap_congr
  intro m hm
  rw [hf m.1 (List.mem_map_of_mem hm)]

theorem actPure_inactive (P : Params) (D : Deform) {id : Nat} {w : World}
    (h : ∀ b, w.bodies id = some b → ¬ w.active b) : actPure P D id w = w := by
  unfold actPure
  cases hb : w.bodies id with
  | none => rfl
  | some b => simp [h b hb]

theorem active_of_sig {w w' : World} (hs : w'.subdomain = w.subdomain) {b b' : Bod}
    (h : b'.sig = b.sig) : w'.active b' ↔ w.active b := by
  unfold World.active
  rw [hs, sig_kind h]
  simp only [Bod.sig, Prod.mk.injEq] at h
  rw [h.2.1, h.2.2.1]

theorem inactive_after (P : Params) (D : Deform) {i j : Nat} {w : World}
    (h : ∀ b, w.bodies i = some b → ¬ w.active b) :
    ∀ b, (actPure P D j w).bodies i = some b → ¬ (actPure P D j w).active b := by
  intro b hb
  obtain ⟨b0, hb0, hs⟩ := SameSig.symm (actPure_sig P D j w) |>.some hb
  rw [← active_of_sig (actPure_frame P D j w).1.symm hs]
  exact h b0 hb0

theorem actPure_active (P : Params) (D : Deform) {id : Nat} {w : World} {b : Bod}
    (hb : w.bodies id = some b) (ha : w.active b) : actPure P D id w = { w with
        bodies := fun j =>
          if j = id then some (stepped P D w id b)
          else match b.kind.members.lookup j with
            | none => w.bodies j
            | some rel => (w.bodies j).map (movedMember (stepped P D w id b).st rel)
        force := fun j => if j = id then totalF w id b else w.force j
        torque := fun j => if j = id then totalT w id b else w.torque j
        maxVelocitySq := (stepped P D w id b ::
          movedList (stepped P D w id b).st w b.kind.members).foldl bump w.maxVelocitySq } := by
  unfold actPure
  rw [hb]
  simp only [if_pos ha]

/-- Iterations for different bodies commute. -/
theorem actPure_comm (P : Params) (D : Deform) {i j : Nat} {w : World} (hw : ClumpsOk w) :
    actPure P D i (actPure P D j w) = actPure P D j (actPure P D i w) := by
  by_cases hij : i = j
  · rw [hij]
  by_cases hi : ∀ b, w.bodies i = some b → ¬ w.active b
  · rw [actPure_inactive P D hi, actPure_inactive P D (inactive_after P D hi)]
  by_cases hj : ∀ b, w.bodies j = some b → ¬ w.active b
  · rw [actPure_inactive P D hj, actPure_inactive P D (inactive_after P D hj)]
  push Not at hi hj
  obtain ⟨bi, hbi, hai⟩ := hi
  obtain ⟨bj, hbj, haj⟩ := hj
  have hfi : ∀ k, w.footprint i k → ¬ w.footprint j k := fun k =>
    footprint_disjoint hw hij hbi hbj hai.1 haj.1
  have key : ∀ (a c : Nat) (ba bc : Bod), a ≠ c → w.bodies a = some ba → w.bodies c = some bc →
      w.active ba → w.active bc → (∀ k, w.footprint a k → ¬ w.footprint c k) →
      actPure P D a (actPure P D c w) = { actPure P D c w with
        bodies := fun k =>
          if k = a then some (stepped P D w a ba)
          else match ba.kind.members.lookup k with
            | none => (actPure P D c w).bodies k
            | some rel => (w.bodies k).map (movedMember (stepped P D w a ba).st rel)
        force := fun k => if k = a then totalF w a ba else (actPure P D c w).force k
        torque := fun k => if k = a then totalT w a ba else (actPure P D c w).torque k
        maxVelocitySq := (stepped P D w a ba ::
          movedList (stepped P D w a ba).st w ba.kind.members).foldl bump
            (actPure P D c w).maxVelocitySq } := by
    intro a c ba bc hac ha hc haa hac' hdis
    have hsame : ∀ k, (k = a ∨ k ∈ ba.kind.members.map Prod.fst) →
        (actPure P D c w).bodies k = w.bodies k ∧ (actPure P D c w).force k = w.force k ∧
        (actPure P D c w).torque k = w.torque k := fun k hk =>
      actPure_outside P D c w (hdis k (hk.imp id fun h => ⟨ba, ha, h⟩))
    obtain ⟨f1, f2, f3, f4, -⟩ := actPure_frame P D c w
    have hb' : (actPure P D c w).bodies a = some ba := by rw [(hsame a (Or.inl rfl)).1, ha]
    have haa' : (actPure P D c w).active ba := (active_of_sig f1 rfl).mpr haa
    obtain ⟨e1, e2, e3⟩ := stepped_congr P D hsame f2 f3 f4
    rw [actPure_active P D hb' haa', e1, e2, e3,
      movedList_congr _ fun k hk => (hsame k (Or.inr hk)).1]
    congr 1
    funext k
    by_cases e : k = a
    · simp [e]
    · simp only [if_neg e]
      cases hl : ba.kind.members.lookup k with
      | none => rfl
      | some rel =>
        simp only
        rw [(hsame k (Or.inr (List.mem_map_of_mem (f := Prod.fst) (lookup_mem hl)))).1]
  rw [key i j bi bj hij hbi hbj hai haj hfi,
    key j i bj bi (Ne.symm hij) hbj hbi haj hai fun k h h' => hfi k h' h]
  rw [actPure_active P D hbi hai, actPure_active P D hbj haj]
  simp only [World.mk.injEq, true_and]
  refine ⟨?_, ?_, ?_, ?_⟩
  · funext k
    by_cases e1 : k = i
    · have e2 : k ≠ j := fun e => hij (e1 ▸ e)
      have : bj.kind.members.lookup k = none := lookup_none fun h =>
        hfi k (Or.inl e1) (Or.inr ⟨bj, hbj, h⟩)
      simp [e1, e1 ▸ this, hij]
    · by_cases e2 : k = j
      · have : bi.kind.members.lookup k = none := lookup_none fun h =>
          hfi k (Or.inr ⟨bi, hbi, h⟩) (Or.inl e2)
        simp [e2, e2 ▸ this, Ne.symm hij]
      · simp only [if_neg e1, if_neg e2]
        cases hl : bi.kind.members.lookup k with
        | none => rfl
        | some rel =>
          have : bj.kind.members.lookup k = none := lookup_none fun h =>
            hfi k (Or.inr ⟨bi, hbi, List.mem_map_of_mem (f := Prod.fst) (lookup_mem hl)⟩)
              (Or.inr ⟨bj, hbj, h⟩)
          rw [this]
  · funext k
    by_cases e1 : k = i
    · have e2 : k ≠ j := fun e => hij (e1 ▸ e)
      simp [e1, hij]
    · simp [e1]
  · funext k
    by_cases e1 : k = i
    · simp [e1, hij]
    · simp [e1]
  · rw [← List.foldl_append, ← List.foldl_append]
    exact List.Perm.foldl_eq List.perm_append_comm _

theorem actLoop_eq (P : Params) (D : Deform) (order : List Nat) (w : World) (hw : ClumpsOk w) :
    actLoop P D order w = .ok (order.foldl (fun w i => actPure P D i w) w) := by
  induction order generalizing w with
  | nil => rfl
  | cons i order ih =>
    simp only [actLoop, actBody_eq P D i w hw, List.foldl_cons]
    exact ih _ (actPure_clumpsOk P D i hw)

theorem foldl_clumpsOk (P : Params) (D : Deform) (order : List Nat) {w : World} (hw : ClumpsOk w) :
    ClumpsOk (order.foldl (fun w i => actPure P D i w) w) := by
  induction order generalizing w with
  | nil => exact hw
  | cons i order ih => exact ih (actPure_clumpsOk P D i hw)

theorem foldl_perm (P : Params) (D : Deform) {o o' : List Nat} (h : o.Perm o') (w : World)
    (hw : ClumpsOk w) :
    o.foldl (fun w i => actPure P D i w) w = o'.foldl (fun w i => actPure P D i w) w := by
  induction h generalizing w with
  | nil => rfl
  | cons i _ ih => exact ih _ (actPure_clumpsOk P D i hw)
  | swap i j l =>
    simp only [List.foldl_cons]
    rw [actPure_comm P D hw]
  | trans _ _ ih1 ih2 => rw [ih1 w hw, ih2 w hw]

end Verif.Mech
