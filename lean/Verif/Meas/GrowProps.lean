import Verif.Meas.EnergyProps

/-!
# Growth, contact friction and unbalanced force

**C189** `growParticles` grows spheres and clumps in place.
**C190** `unbalancedForce` tells how far the bodies are from equilibrium.
**C193** `setContactFriction` sets the friction of all moving bodies and contacts.
-/
namespace Verif.Meas
open Verif Verif.Mech Matrix

/-! ### C189, specification -/

/-- every place has a body, and the body named as clump by a member is a clump -/
structure WellFormed (s : MScene) : Prop where
  present : ∀ o ∈ s.bodies, o ≠ none
  clumps : ∀ (i : Nat) (b : MBody) (c : Nat), s.bodies[i]? = some (some b) → b.clumpId = some c → ∃ (B : MBody) (ms : List (Nat × V3)), s.bodies[c]? = some (some B) ∧
    B.clumpId = some c ∧ B.shape = .clump ms
  spheres : ∀ (i : Nat) (b : MBody) (r : ℝ), s.bodies[i]? = some (some b) → b.shape = .sphere r → b.clumpId ≠ some i

/-- body `b` of scene `s`, number `i`, grows by `m` -/
structure Grows (s : MScene) (m : ℝ) (mass : Bool) (i : Nat) (b b' : MBody) : Prop where
  massOf : b'.mass = if mass then m ^ 3 * b.mass else b.mass
  inertiaOf : ∀ a, b'.inertia a = if mass then m ^ 5 * b.inertia a else b.inertia a
  radiusOf : ∀ r, b.shape = .sphere r → b'.shape = .sphere (m * r)
  membersAt : ∀ ms, b.shape = .clump ms → b'.shape = .clump (ms.map fun x => (x.1, m • x.2))
  placeOwn : (b.clumpId = none ∨ b.clumpId = some i) → b'.pos = b.pos
  placeMember : ∀ c B, b.clumpId = some c → c ≠ i → s.bodies[c]? = some (some B) → b'.pos = B.pos + m • (b.pos - B.pos)
  others : b'.vel = b.vel ∧ b'.angVel = b.angVel ∧ b'.angMom = b.angMom ∧ b'.ori = b.ori ∧ b'.dynamic = b.dynamic ∧
    b'.aspherical = b.aspherical ∧ b'.clumpId = b.clumpId ∧ b'.mask = b.mask ∧ b'.mat = b.mat

/-- the body is a sphere or a clump, and moves unless all bodies are to grow -/
def Growing (dynamicOnly : Bool) (i : Nat) (b : MBody) : Prop :=
  (dynamicOnly = true → b.dynamic = true) ∧ ((∃ r, b.shape = .sphere r) ∨ b.clumpId = some i)

/-- the members of the clump with number `c` are where the clump has them -/
def Rigid (s : MScene) (c : Nat) : Prop := ∀ B ms, s.bodies[c]? = some (some B) → B.shape = .clump ms →
  ∀ x ∈ ms, ∃ b, s.bodies[x.1]? = some (some b) ∧ b.clumpId = some c ∧ x.1 ≠ c ∧ b.pos = B.pos + B.ori.rot x.2

/-! ### The loop -/

/-- what the loop does to the body numbered `i` -/
def grown (m : ℝ) (um dyn : Bool) (s : MScene) (i : Nat) (b : MBody) : MBody :=
  if dyn = true ∧ b.dynamic = false then b
  else if isClump i b then { growMass m um b with shape := .clump ((membersOf b).map fun x => (x.1, m • x.2)) }
  else match radius? b with
    | none => b
    | some r =>
      if isMember i b then
        { growMass m um b with shape := .sphere (r * m), pos := b.pos + (m - 1) • (b.pos - (match s.bodies[b.clumpId.getD 0]? with | some (some c) => c.pos | _ => 0)) }
      else { growMass m um b with shape := .sphere (r * m) }

/-- the scene after the bodies below `k` -/
def grownTo (m : ℝ) (um dyn : Bool) (s : MScene) (k : Nat) : MScene :=
  { s with bodies := s.bodies.mapIdx fun i o => if i < k then o.map (grown m um dyn s i) else o }

theorem grownTo_at (m : ℝ) (um dyn : Bool) (s : MScene) (k i : Nat) (b : MBody) (h : s.bodies[i]? = some (some b)) :
    (grownTo m um dyn s k).bodies[i]? = some (some (if i < k then grown m um dyn s i b else b)) := by
  simp only [grownTo, List.getElem?_mapIdx, h, Option.map_some]
  by_cases hk : i < k
  · rw [if_pos hk, if_pos hk]
  · rw [if_neg hk, if_neg hk]

theorem growMass_keep (m : ℝ) (um : Bool) (b : MBody) :
    (growMass m um b).pos = b.pos ∧ (growMass m um b).shape = b.shape ∧ (growMass m um b).clumpId = b.clumpId ∧
      (growMass m um b).dynamic = b.dynamic ∧ (growMass m um b).vel = b.vel ∧ (growMass m um b).angVel = b.angVel ∧
      (growMass m um b).angMom = b.angMom ∧ (growMass m um b).ori = b.ori ∧ (growMass m um b).aspherical = b.aspherical ∧
      (growMass m um b).mask = b.mask ∧ (growMass m um b).mat = b.mat := by
  unfold growMass
  by_cases h : um = true
  · rw [if_pos h]; exact ⟨rfl, rfl, rfl, rfl, rfl, rfl, rfl, rfl, rfl, rfl, rfl⟩
  · rw [if_neg h]; exact ⟨rfl, rfl, rfl, rfl, rfl, rfl, rfl, rfl, rfl, rfl, rfl⟩

theorem growMass_mass (m : ℝ) (um : Bool) (b : MBody) :
    (growMass m um b).mass = (if um then m ^ 3 * b.mass else b.mass) ∧
      ∀ a, (growMass m um b).inertia a = if um then m ^ 5 * b.inertia a else b.inertia a := by
  unfold growMass
  by_cases h : um = true
  · rw [if_pos h, if_pos h]
    exact ⟨mul_comm _ _, fun a => by rw [if_pos h]; simp⟩
  · rw [if_neg h, if_neg h]
    exact ⟨rfl, fun a => by rw [if_neg h]⟩

theorem isClump_iff (i : Nat) (b : MBody) : isClump i b = true ↔ b.clumpId = some i := by
  unfold isClump
  cases b.clumpId with
  | none => simp
  | some c => simp

theorem grown_pos (m : ℝ) (um dyn : Bool) (s : MScene) (i : Nat) (b : MBody) (h : isMember i b = false) :
    (grown m um dyn s i b).pos = b.pos := by
  unfold grown
  by_cases h1 : dyn = true ∧ b.dynamic = false
  · rw [if_pos h1]
  rw [if_neg h1]
  by_cases h2 : isClump i b = true
  · rw [if_pos h2]; exact (growMass_keep m um b).1
  rw [if_neg h2]
  cases radius? b with
  | none => rfl
  | some r => simp only; rw [if_neg (by rw [h]; decide)]; exact (growMass_keep m um b).1

theorem set_grown (m : ℝ) (um dyn : Bool) (s : MScene) (k : Nat) (b : MBody) (h : s.bodies[k]? = some (some b)) :
    { grownTo m um dyn s k with bodies := (grownTo m um dyn s k).bodies.set k (some (grown m um dyn s k b)) } = grownTo m um dyn s (k + 1) := by
  unfold grownTo
  simp only
  congr 1
  apply List.ext_getElem?
  intro j
  rw [List.getElem?_set]
  by_cases hj : k = j
  · subst hj
    have hk : k < s.bodies.length := by
      by_contra hn
      rw [List.getElem?_eq_none (not_lt.mp hn)] at h; cases h
    rw [if_pos rfl, if_pos (by simpa using hk), List.getElem?_mapIdx, h]
    simp
  · rw [if_neg hj]
    simp only [List.getElem?_mapIdx]
    have : (j < k) = (j < k + 1) := by apply propext; omega
    simp only [this]

theorem grownTo_same (m : ℝ) (um dyn : Bool) (s : MScene) (k : Nat) (b : MBody) (h : s.bodies[k]? = some (some b))
    (hb : grown m um dyn s k b = b) : grownTo m um dyn s k = grownTo m um dyn s (k + 1) := by
  rw [← set_grown m um dyn s k b h, hb]
  have e := grownTo_at m um dyn s k k b h
  rw [if_neg (lt_irrefl _)] at e
  have : (grownTo m um dyn s k).bodies.set k (some b) = (grownTo m um dyn s k).bodies := by
    apply List.ext_getElem?
    intro j
    rw [List.getElem?_set]
    by_cases hj : k = j
    · subst hj
      rw [if_pos rfl, e]
      have hk : k < (grownTo m um dyn s k).bodies.length := by
        by_contra hn
        rw [List.getElem?_eq_none (not_lt.mp hn)] at e; cases e
      rw [if_pos hk]
    · rw [if_neg hj]
  rw [this]

theorem growBody_step (m : ℝ) (um dyn : Bool) (s : MScene) (hs : WellFormed s) (k : Nat) (hk : k < s.bodies.length) :
    growBody m um dyn (grownTo m um dyn s k) k = .ok (grownTo m um dyn s (k + 1)) := by
  obtain ⟨b, hb⟩ : ∃ b, s.bodies[k]? = some (some b) := by
    rw [List.getElem?_eq_getElem hk]
    cases h : s.bodies[k] with
    | none => exact absurd h (hs.present _ (List.getElem_mem hk))
    | some b => exact ⟨b, rfl⟩
  have hk' := grownTo_at m um dyn s k k b hb
  rw [if_neg (lt_irrefl _)] at hk'
  have hg : grown m um dyn s k b = grown m um dyn s k b := rfl
  rw [growBody, body_ok hk', Res.bind_ok]
  by_cases h1 : dyn = true ∧ b.dynamic = false
  · rw [if_pos h1, grownTo_same m um dyn s k b hb (by unfold grown; rw [if_pos h1])]
  rw [if_neg h1]
  by_cases h2 : isClump k b = true
  · rw [if_pos h2]
    have e : grown m um dyn s k b = { growMass m um b with shape := .clump ((membersOf b).map fun x => (x.1, m • x.2)) } := by
      unfold grown; rw [if_neg h1, if_pos h2]
    have hm : membersOf (growMass m um b) = membersOf b := by unfold membersOf; rw [(growMass_keep m um b).2.1]
    simp only [hm]
    rw [← e, set_grown m um dyn s k b hb]
  rw [if_neg h2]
  cases hr : radius? b with
  | none =>
    simp only
    rw [grownTo_same m um dyn s k b hb (by unfold grown; rw [if_neg h1, if_neg h2, hr])]
  | some r =>
    simp only
    have hmem : isMember k { growMass m um b with shape := .sphere (r * m) } = isMember k b := by
      unfold isMember isClump
      simp only [(growMass_keep m um b).2.2.1]
    rw [hmem]
    by_cases h3 : isMember k b = true
    · rw [if_pos h3]
      obtain ⟨c, hc⟩ : ∃ c, b.clumpId = some c := by
        cases hc : b.clumpId with
        | none => rw [(isMember_iff k b).mpr (.inl hc)] at h3; cases h3
        | some c => exact ⟨c, rfl⟩
      obtain ⟨B, ms, hB, hBc, -⟩ := hs.clumps k b c hb hc
      have hB' := grownTo_at m um dyn s k c B hB
      have e1 : (growMass m um b).clumpId.getD 0 = c := by rw [(growMass_keep m um b).2.2.1, hc]; rfl
      simp only [e1]
      rw [body_ok hB', Res.bind_ok]
      have hpos : (if c < k then grown m um dyn s c B else B).pos = B.pos := by
        by_cases hck : c < k
        · rw [if_pos hck]
          exact grown_pos m um dyn s c B ((isMember_iff c B).mpr (.inr hBc))
        · rw [if_neg hck]
      rw [hpos]
      have e : grown m um dyn s k b =
          { growMass m um b with shape := .sphere (r * m), pos := b.pos + (m - 1) • (b.pos - B.pos) } := by
        unfold grown
        rw [if_neg h1, if_neg h2, hr]
        simp only
        rw [if_pos h3]
        simp only [hc, Option.getD_some, hB]
      simp only [(growMass_keep m um b).1]
      rw [← e, set_grown m um dyn s k b hb]
    · rw [if_neg h3]
      have e : grown m um dyn s k b = { growMass m um b with shape := .sphere (r * m) } := by
        unfold grown
        rw [if_neg h1, if_neg h2, hr]
        simp only
        rw [if_neg h3]
      rw [← e, set_grown m um dyn s k b hb]

theorem foldR_append {α β : Type} (f : β → α → Res β) (l : List α) : ∀ (b : β) (l' : List α),
    foldR f b (l ++ l') = (foldR f b l).bind fun c => foldR f c l' := by
  induction l with
  | nil => intro b l'; rfl
  | cons x l ih =>
    intro b l'
    rw [List.cons_append, foldR, foldR]
    cases f b x with
    | ok c => exact ih c l'
    | throws => rfl
    | ub => rfl

theorem grow_loop (m : ℝ) (um dyn : Bool) (s : MScene) (hs : WellFormed s) : ∀ k, k ≤ s.bodies.length →
    foldR (growBody m um dyn) s (List.range k) = .ok (grownTo m um dyn s k) := by
  intro k
  induction k with
  | zero =>
    intro _
    have : grownTo m um dyn s 0 = s := by
      unfold grownTo
      have : (s.bodies.mapIdx fun i o => if i < 0 then o.map (grown m um dyn s i) else o) = s.bodies := by
        apply List.ext_getElem?
        intro j
        simp
      rw [this]
    rw [this]; rfl
  | succ k ih =>
    intro h
    rw [List.range_succ, foldR_append, ih (by omega), Res.bind_ok, foldR, growBody_step m um dyn s hs k (by omega), Res.bind_ok]
    rfl

/-- the contacts are between bodies there are -/
def JoinsBodies (s : MScene) : Prop := ∀ I ∈ s.intrs, I.real = true →
  (∃ b, s.bodies[I.id1]? = some (some b)) ∧ ∃ b, s.bodies[I.id2]? = some (some b)

/-- a contact after the growth, with the radii in scene `t` -/
def grownContact (m : ℝ) (dyn : Bool) (t : MScene) (I : MIntr) : MIntr :=
  match growIntr m dyn t I with
  | .ok J => J
  | _ => I

theorem grow_ok (m : ℝ) (um dyn : Bool) (s : MScene) (hs : WellFormed s) (hj : JoinsBodies s) :
    growParticles s m um dyn = .ok { grownTo m um dyn s s.bodies.length with
      intrs := s.intrs.map (grownContact m dyn (grownTo m um dyn s s.bodies.length)) } := by
  rw [growParticles, grow_loop m um dyn s hs _ (le_refl _), Res.bind_ok]
  have : ∀ (l : List MIntr) (acc : List MIntr), (∀ I ∈ l, I ∈ s.intrs) →
      foldR (fun l I => (growIntr m dyn (grownTo m um dyn s s.bodies.length) I).bind fun J => .ok (l ++ [J])) acc l =
        .ok (acc ++ l.map (grownContact m dyn (grownTo m um dyn s s.bodies.length))) := by
    intro l
    induction l with
    | nil => intro acc _; simp [foldR]
    | cons I l ih =>
      intro acc h
      have e : growIntr m dyn (grownTo m um dyn s s.bodies.length) I =
          .ok (grownContact m dyn (grownTo m um dyn s s.bodies.length) I) := by
        unfold grownContact
        have : ∃ J, growIntr m dyn (grownTo m um dyn s s.bodies.length) I = .ok J := by
          rw [growIntr]
          by_cases hr : I.real = false
          · rw [if_pos hr]; exact ⟨_, rfl⟩
          · rw [if_neg hr]
            obtain ⟨⟨b1, h1⟩, b2, h2⟩ := hj I (h I (by simp)) (by simpa using hr)
            rw [body_ok (grownTo_at m um dyn s _ _ b1 h1), Res.bind_ok, body_ok (grownTo_at m um dyn s _ _ b2 h2), Res.bind_ok]
            exact ⟨_, rfl⟩
        obtain ⟨J, hJ⟩ := this
        rw [hJ]
      rw [foldR, e, Res.bind_ok, Res.bind_ok, ih _ fun J hJ => h J (by simp [hJ])]
      simp
  have t := this s.intrs [] fun _ h => h
  rw [List.nil_append] at t
  show ((foldR _ [] s.intrs).bind _) = _
  rw [t, Res.bind_ok]

theorem grown_sphere (m : ℝ) (um dyn : Bool) (s : MScene) (i : Nat) (b : MBody) (h : Growing dyn i b) (hs : WellFormed s)
    (hb : s.bodies[i]? = some (some b)) : Grows s m um i b (grown m um dyn s i b) := by
  have K := growMass_keep m um b
  have M := growMass_mass m um b
  have h1 : ¬ (dyn = true ∧ b.dynamic = false) := by rintro ⟨h1, h2⟩; rw [h.1 h1] at h2; cases h2
  unfold grown
  rw [if_neg h1]
  by_cases h2 : isClump i b = true
  · rw [if_pos h2]
    have hc := (isClump_iff i b).mp h2
    obtain ⟨B, ms, hB, -, hms⟩ := hs.clumps i b i hb hc
    have hBb : B = b := by rw [hB] at hb; exact Option.some.inj (Option.some.inj hb)
    subst hBb
    refine ⟨M.1, M.2, fun r hr => ?_, fun ms' h' => ?_, fun _ => K.1, fun c B' h' hne _ => ?_, ?_⟩
    · rw [hms] at hr; cases hr
    · simp only [membersOf, h']
    · rw [hc] at h'; exact absurd (Option.some.inj h').symm hne
    · exact ⟨K.2.2.2.2.1, K.2.2.2.2.2.1, K.2.2.2.2.2.2.1, K.2.2.2.2.2.2.2.1, K.2.2.2.1, K.2.2.2.2.2.2.2.2.1, K.2.2.1, K.2.2.2.2.2.2.2.2.2.1, K.2.2.2.2.2.2.2.2.2.2⟩
  · rw [if_neg h2]
    have hnc : b.clumpId ≠ some i := fun hc => h2 ((isClump_iff i b).mpr hc)
    obtain ⟨r, hr⟩ : ∃ r, b.shape = .sphere r := by
      rcases h.2 with h | h
      · exact h
      · exact absurd h hnc
    have hr' : radius? b = some r := by unfold radius?; rw [hr]
    rw [hr']
    simp only
    by_cases h3 : isMember i b = true
    · rw [if_pos h3]
      refine ⟨M.1, M.2, fun r' h' => ?_, fun ms h' => ?_, fun h' => ?_, fun c B hc hne hB => ?_, ?_⟩
      · rw [hr] at h'; cases h'; simp only [mul_comm]
      · rw [hr] at h'; cases h'
      · rw [(isMember_iff i b).mpr h'] at h3; cases h3
      · simp only [hc, Option.getD_some, hB]
        apply v3_ext <;> simp <;> ring
      · exact ⟨K.2.2.2.2.1, K.2.2.2.2.2.1, K.2.2.2.2.2.2.1, K.2.2.2.2.2.2.2.1, K.2.2.2.1, K.2.2.2.2.2.2.2.2.1, K.2.2.1, K.2.2.2.2.2.2.2.2.2.1, K.2.2.2.2.2.2.2.2.2.2⟩
    · rw [if_neg h3]
      refine ⟨M.1, M.2, fun r' h' => ?_, fun ms h' => ?_, fun h' => K.1, fun c B hc hne hB => ?_, ?_⟩
      · rw [hr] at h'; cases h'; simp only [mul_comm]
      · rw [hr] at h'; cases h'
      · rcases (isMember_iff i b).mp (by simpa using h3) with h' | h'
        · rw [h'] at hc; cases hc
        · exact absurd h' hnc
      · exact ⟨K.2.2.2.2.1, K.2.2.2.2.2.1, K.2.2.2.2.2.2.1, K.2.2.2.2.2.2.2.1, K.2.2.2.1, K.2.2.2.2.2.2.2.2.1, K.2.2.1, K.2.2.2.2.2.2.2.2.2.1, K.2.2.2.2.2.2.2.2.2.2⟩

theorem grown_other (m : ℝ) (um dyn : Bool) (s : MScene) (i : Nat) (b : MBody) (h : ¬ Growing dyn i b) : grown m um dyn s i b = b := by
  unfold grown
  by_cases h1 : dyn = true ∧ b.dynamic = false
  · rw [if_pos h1]
  rw [if_neg h1]
  have hd : dyn = true → b.dynamic = true := by
    intro hd
    by_contra hb
    exact h1 ⟨hd, by simpa using hb⟩
  have hc : ¬ isClump i b = true := fun hc => h ⟨hd, .inr ((isClump_iff i b).mp hc)⟩
  rw [if_neg hc]
  have hr : radius? b = none := by
    unfold radius?
    cases hs : b.shape with
    | sphere r => exact absurd ⟨hd, .inl ⟨r, hs⟩⟩ h
    | clump ms => rfl
    | gridNode => rfl
    | other => rfl
  rw [hr]

/-! ### C189 -/

/-- **C189 (part).** If no body was ever erased, `growParticles` makes all spheres and clumps (all moving ones, if so asked) grow:
radius and offsets in clumps are multiplied by `m`, masses by `m³` and inertia by `m⁵`, members are moved away from the centre of
their clump by the same factor, nothing else is changed. -/
theorem C189_grown_partial (s : MScene) (m : ℝ) (um dyn : Bool) (hs : WellFormed s) (hj : JoinsBodies s) :
    ∃ s', growParticles s m um dyn = .ok s' ∧ s'.bodies.length = s.bodies.length ∧
      ∀ i b, s.bodies[i]? = some (some b) → ∃ b', s'.bodies[i]? = some (some b') ∧
        (Growing dyn i b → Grows s m um i b b') ∧ (¬ Growing dyn i b → b' = b) := by
  refine ⟨_, grow_ok m um dyn s hs hj, by simp [grownTo], fun i b hb => ⟨grown m um dyn s i b, ?_, fun h => ?_, fun h => ?_⟩⟩
  · have := grownTo_at m um dyn s s.bodies.length i b hb
    have hi : i < s.bodies.length := by
      by_contra hn
      rw [List.getElem?_eq_none (not_lt.mp hn)] at hb; cases hb
    rwa [if_pos hi] at this
  · exact grown_sphere m um dyn s i b h hs hb
  · exact grown_other m um dyn s i b h

/-- **C189 (contacts, part).** Every contact keeps its place; its reference radii are the radii of the spheres after the growth,
and its stiffnesses are multiplied by `m`. -/
theorem C189_contacts_partial (s : MScene) (m : ℝ) (um : Bool) (hs : WellFormed s) (hj : JoinsBodies s) :
    ∃ s', growParticles s m um false = .ok s' ∧ s'.intrs.length = s.intrs.length ∧
      ∀ (k : Nat) (I : MIntr), s.intrs[k]? = some I → ∃ J : MIntr, s'.intrs[k]? = some J ∧ J.id1 = I.id1 ∧ J.id2 = I.id2 ∧ J.real = I.real ∧
        (I.real = false → J = I) ∧
        (I.real = true → J.kn = m * I.kn ∧ J.ks = m * I.ks ∧
          (∀ (b : MBody) (r : ℝ), s'.bodies[I.id1]? = some (some b) → b.shape = .sphere r → J.refR1 = r) ∧
          ∀ (b : MBody) (r : ℝ), s'.bodies[I.id2]? = some (some b) → b.shape = .sphere r → J.refR2 = r) := by
  refine ⟨_, grow_ok m um false s hs hj, by simp, fun k I hk => ?_⟩
  refine ⟨grownContact m false (grownTo m um false s s.bodies.length) I, by simp [hk], ?_⟩
  unfold grownContact
  rw [growIntr]
  by_cases hr : I.real = false
  · rw [if_pos hr]
    exact ⟨rfl, rfl, rfl, fun _ => rfl, fun h => by rw [hr] at h; cases h⟩
  · rw [if_neg hr]
    obtain ⟨⟨b1, h1⟩, b2, h2⟩ := hj I (List.mem_of_getElem? hk) (by simpa using hr)
    have g1 := grownTo_at m um false s s.bodies.length _ b1 h1
    have g2 := grownTo_at m um false s s.bodies.length _ b2 h2
    rw [body_ok g1, Res.bind_ok, body_ok g2, Res.bind_ok]
    refine ⟨rfl, rfl, rfl, fun h => absurd h hr, fun _ => ⟨mul_comm _ _, mul_comm _ _, fun b r hb hbr => ?_, fun b r hb hbr => ?_⟩⟩
    · have : some (some b) = some (some _) := hb.symm.trans g1
      have := Option.some.inj (Option.some.inj this)
      rw [← this]
      simp [newRef, radius?, hbr]
    · have : some (some b) = some (some _) := hb.symm.trans g2
      have := Option.some.inj (Option.some.inj this)
      rw [← this]
      simp [newRef, radius?, hbr]

/-- **C189 (density).** A sphere that grows keeps its density. -/
theorem C189_density (s : MScene) (m : ℝ) (hm : m ≠ 0) (i : Nat) (b b' : MBody) (h : Grows s m true i b b') (r : ℝ)
    (hr : b.shape = .sphere r) : ∃ r', b'.shape = .sphere r' ∧ b'.mass / ballVolume r' = b.mass / ballVolume r := by
  refine ⟨m * r, h.radiusOf r hr, ?_⟩
  rw [h.massOf, if_pos rfl, ballVolume, ballVolume]
  rw [show 4 / 3 * Real.pi * (m * r) ^ 3 = m ^ 3 * (4 / 3 * Real.pi * r ^ 3) by ring]
  exact mul_div_mul_left _ _ (pow_ne_zero 3 hm)

/-- **C189 (clumps, part).** Clumps whose members move if the clump does and are spheres stay rigid: members are where the clump
has them, after growth as before. -/
theorem C189_rigid_partial (s : MScene) (m : ℝ) (um dyn : Bool) (hs : WellFormed s) (hj : JoinsBodies s) (c : Nat)
    (hr : Rigid s c)
    (hm : ∀ B ms, s.bodies[c]? = some (some B) → B.shape = .clump ms → B.clumpId = some c ∧
      ∀ x ∈ ms, ∀ b, s.bodies[x.1]? = some (some b) → (∃ r, b.shape = .sphere r) ∧ b.dynamic = B.dynamic) :
    ∃ s', growParticles s m um dyn = .ok s' ∧ Rigid s' c := by
  obtain ⟨s', h1, hl, h2⟩ := C189_grown_partial s m um dyn hs hj
  refine ⟨s', h1, fun B' ms' hB' hms' => ?_⟩
  obtain ⟨B, hB⟩ : ∃ B, s.bodies[c]? = some (some B) := by
    have hc : c < s.bodies.length := by
      rw [← hl]
      by_contra hn
      rw [List.getElem?_eq_none (not_lt.mp hn)] at hB'; cases hB'
    rw [List.getElem?_eq_getElem hc]
    cases h : s.bodies[c] with
    | none => exact absurd h (hs.present _ (List.getElem_mem hc))
    | some B => exact ⟨B, rfl⟩
  obtain ⟨B1, hB1, hgr, hno⟩ := h2 c B hB
  have hBB : B1 = B' := by rw [hB'] at hB1; exact (Option.some.inj (Option.some.inj hB1)).symm
  subst hBB
  by_cases hg : Growing dyn c B
  · have G := hgr hg
    cases hsh : B.shape with
    | sphere r => rw [G.radiusOf r hsh] at hms'; cases hms'
    | clump ms =>
      rw [G.membersAt ms hsh] at hms'
      cases hms'
      obtain ⟨hBc, hmem⟩ := hm B ms hB hsh
      intro x' hx'
      obtain ⟨x, hx, rfl⟩ := List.mem_map.mp hx'
      obtain ⟨b, hb, hbc, hne, hpos⟩ := hr B ms hB hsh x hx
      obtain ⟨hsph, hdyn⟩ := hmem x hx b hb
      obtain ⟨b', hb', hgrow, -⟩ := h2 x.1 b hb
      have gb : Growing dyn x.1 b := ⟨fun hd => by rw [hdyn]; exact hg.1 hd, .inl hsph⟩
      have Gb := hgrow gb
      refine ⟨b', hb', by rw [Gb.others.2.2.2.2.2.2.1, hbc], hne, ?_⟩
      rw [Gb.placeMember c B hbc (Ne.symm hne) hB, G.placeOwn (.inr hBc), G.others.2.2.2.1, hpos]
      simp only
      rw [Quat.rot_smul]
      congr 1
      apply v3_ext <;> simp
    | gridNode =>
      obtain ⟨B2, ms, hB2, -, hs2⟩ := hs.clumps c B c hB (by
        rcases hg.2 with ⟨r, h⟩ | h
        · rw [hsh] at h; cases h
        · exact h)
      rw [hB] at hB2; cases hB2
      rw [hsh] at hs2; cases hs2
    | other =>
      obtain ⟨B2, ms, hB2, -, hs2⟩ := hs.clumps c B c hB (by
        rcases hg.2 with ⟨r, h⟩ | h
        · rw [hsh] at h; cases h
        · exact h)
      rw [hB] at hB2; cases hB2
      rw [hsh] at hs2; cases hs2
  · rw [hno hg] at hms' ⊢
    obtain ⟨hBc, hmem⟩ := hm B ms' hB hms'
    intro x hx
    obtain ⟨b, hb, hbc, hne, hpos⟩ := hr B ms' hB hms' x hx
    obtain ⟨hsph, hdyn⟩ := hmem x hx b hb
    obtain ⟨b', hb', -, hsame⟩ := h2 x.1 b hb
    have ng : ¬ Growing dyn x.1 b := fun h => hg ⟨fun hd => by rw [← hdyn]; exact h.1 hd, .inr hBc⟩
    rw [hsame ng] at hb'
    exact ⟨b, hb', hbc, hne, hpos⟩

/-- **C189 fails after a body was erased**: the empty place is dereferenced. -/
theorem C189_violated_erased (s : MScene) (m : ℝ) (um dyn : Bool) (l : List (Option MBody)) (h : s.bodies = none :: l) :
    growParticles s m um dyn = .ub := by
  have : growBody m um dyn s 0 = .ub := by
    unfold growBody body
    rw [h]; rfl
  unfold growParticles
  rw [h]
  simp only [List.length_cons, List.range_succ_eq_map]
  rw [foldR, this]
  rfl

/-- a fixed clump with one sphere that is not marked as fixed -/
noncomputable def fixedClump : MScene :=
  sceneOf [some { ball ![1, 0, 0] 1 with clumpId := some 1 },
    some { ball 0 1 with shape := .clump [(0, ![1, 0, 0])], clumpId := some 1, dynamic := false }]

theorem fixedClump_wf : WellFormed fixedClump ∧ JoinsBodies fixedClump := by
  refine ⟨⟨by simp [fixedClump, sceneOf], ?_, ?_⟩, by intro I hI; simp [fixedClump, sceneOf] at hI⟩
  · intro i b c hb hc
    have hb := List.mem_of_getElem? hb
    simp only [fixedClump, sceneOf, List.mem_cons, Option.some.injEq, List.not_mem_nil, or_false] at hb
    rcases hb with rfl | rfl
    · simp only [Option.some.injEq] at hc
      subst hc
      exact ⟨_, _, rfl, rfl, rfl⟩
    · simp only [Option.some.injEq] at hc
      subst hc
      exact ⟨_, _, rfl, rfl, rfl⟩
  · intro i b r hb hr
    match i, hb with
    | 0, hb =>
      simp only [fixedClump, sceneOf, List.getElem?_cons_zero, Option.some.injEq] at hb
      subst hb; simp
    | 1, hb =>
      simp only [fixedClump, sceneOf, List.getElem?_cons_succ, List.getElem?_cons_zero, Option.some.injEq] at hb
      subst hb
      simp at hr
    | n + 2, hb => simp [fixedClump, sceneOf] at hb

/-- **C189 fails for clumps whose members are not marked as the clump is**, when only moving bodies are to grow: the member is
moved, the clump keeps its old place. -/
theorem C189_violated_rigid : Rigid fixedClump 1 ∧ ∃ s', growParticles fixedClump 2 true true = .ok s' ∧ ¬ Rigid s' 1 := by
  constructor
  · intro B ms hB hms x hx
    simp only [fixedClump, sceneOf, List.getElem?_cons_succ, List.getElem?_cons_zero, Option.some.injEq] at hB
    subst hB
    simp only [MShape.clump.injEq] at hms
    subst hms
    simp only [List.mem_singleton] at hx
    subst hx
    exact ⟨_, rfl, rfl, by decide, by simp [ball, Quat.rot_one]⟩
  · obtain ⟨s', h1, hl, h2⟩ := C189_grown_partial fixedClump 2 true true fixedClump_wf.1 fixedClump_wf.2
    refine ⟨s', h1, fun hr => ?_⟩
    obtain ⟨b', hb', hg, -⟩ := h2 0 _ rfl
    obtain ⟨B', hB', -, hn⟩ := h2 1 _ rfl
    have hBe := hn fun h => by have := h.1 rfl; simp at this
    have G := hg ⟨fun _ => rfl, .inl ⟨1, rfl⟩⟩
    subst hBe
    obtain ⟨b, hb, -, -, hpos⟩ := hr _ _ hB' rfl (0, ![1, 0, 0]) (by simp)
    have : b = b' := by
      have := hb.symm.trans hb'
      exact Option.some.inj (Option.some.inj this)
    subst this
    have e := G.placeMember 1 _ rfl (by decide) rfl
    rw [e] at hpos
    have := congrFun hpos 0
    simp [ball, Quat.rot_one] at this

/-- **C189 fails for contacts between fixed bodies**, when only moving bodies are to grow: nothing grows, the contact becomes stiffer. -/
theorem C189_violated_stiffness : ∃ s s' : MScene, (∀ b, some b ∈ s.bodies → b.dynamic = false) ∧
    growParticles s 2 true true = .ok s' ∧ s'.bodies = s.bodies ∧
    ∃ I J, I ∈ s.intrs ∧ s'.intrs = [J] ∧ s.intrs = [I] ∧ I.kn = 1 ∧ J.kn = 2 := by
  let b1 : MBody := { ball 0 1 with dynamic := false }
  let b2 : MBody := { ball ![2, 0, 0] 1 with dynamic := false }
  let I : MIntr := { pressed with id1 := 0, id2 := 1, kn := 1, real := true }
  refine ⟨{ sceneOf [some b1, some b2] with intrs := [I] },
    { sceneOf [some b1, some b2] with intrs := [{ I with refR1 := I.refR1, refR2 := I.refR2, kn := I.kn * 2, ks := I.ks * 2 }] },
    ?_, ?_, rfl, I, _, by simp, rfl, rfl, rfl, by simp [I]⟩
  · intro b hb
    simp only [sceneOf, List.mem_cons, Option.some.injEq, List.not_mem_nil, or_false] at hb
    rcases hb with rfl | rfl <;> rfl
  · rfl

/-! ### C190 -/

/-- resultant on a body or clump: its own force, gravity, and for a clump the forces on its members -/
noncomputable def net (s : MScene) (i : Nat) (b : MBody) : V3 :=
  s.force i + b.mass • s.gravity + if b.clumpId = some i then ((membersOf b).map fun x => s.force x.1).sum else 0

/-- `isMember` of `Free` bodies -/
theorem free_iff (s : MScene) (i : Nat) (b : MBody) :
    Free s i b ↔ ((some b, i) ∈ numbered s ∧ ¬ (isMember i b = true ∨ b.dynamic = false)) := by
  rw [mem_numbered]
  unfold Free
  rw [← isMember_iff]
  constructor
  · rintro ⟨h, hd, hm⟩
    exact ⟨h, by rw [hd, hm]; simp⟩
  · rintro ⟨h, hn⟩
    push Not at hn
    exact ⟨h, by simpa using hn.2, by simpa using hn.1⟩

/-- the forces on a scene `unbalancedForce` is able to sum up: clumps have no force and no weight of their own, their members exist -/
def SumsUp (s : MScene) : Prop := ∀ i b, Free s i b → b.clumpId = some i →
  s.gravity = 0 ∧ s.force i = 0 ∧ ∀ x ∈ membersOf b, ∃ b', s.bodies[x.1]? = some (some b')

theorem norm3_zero : norm3 0 = 0 := norm3_eq_zero.mpr rfl

theorem bodyForce_net (s : MScene) (i : Nat) (b : MBody) (hf : Free s i b) (h : SumsUp s) :
    bodyForce s i b = .ok (norm3 (net s i b)) := by
  unfold bodyForce net
  by_cases hc : b.clumpId = some i
  · obtain ⟨hg, h0, hm⟩ := h i b hf hc
    have e : norm3 (s.force i + b.mass • s.gravity) = 0 := by rw [hg, h0]; simp [norm3_zero]
    rw [if_pos ⟨(isClump_iff i b).mpr hc, e⟩, if_pos hc]
    have : memberForces s (s.force i) (membersOf b) = .ok (s.force i + ((membersOf b).map fun x => s.force x.1).sum) := by
      unfold memberForces
      apply foldR_sum
      intro x hx f
      obtain ⟨b', hb'⟩ := hm x hx
      rw [body_ok hb', Res.bind_ok]
    rw [this, Res.bind_ok]
    congr 2
    abel
  · rw [if_neg (fun hh => hc ((isClump_iff i b).mp hh.1)), if_neg hc, add_zero]

/-- resultants of the free bodies, in order -/
noncomputable def nets (s : MScene) : List ℝ :=
  (numbered s).filterMap fun x => match x.1 with
    | some b => if isMember x.2 b = true ∨ b.dynamic = false then none else some (norm3 (net s x.2 b))
    | none => none

theorem mem_nets (s : MScene) (f : ℝ) : f ∈ nets s ↔ ∃ i b, Free s i b ∧ f = norm3 (net s i b) := by
  unfold nets
  rw [List.mem_filterMap]
  constructor
  · rintro ⟨⟨y, i⟩, hx, hf⟩
    cases y with
    | none => cases hf
    | some b =>
      simp only at hf
      by_cases hc : isMember i b = true ∨ b.dynamic = false
      · rw [if_pos hc] at hf; cases hf
      · rw [if_neg hc] at hf
        exact ⟨i, b, (free_iff s i b).mpr ⟨hx, hc⟩, (Option.some.inj hf).symm⟩
  · rintro ⟨i, b, hf, rfl⟩
    obtain ⟨hx, hc⟩ := (free_iff s i b).mp hf
    exact ⟨(some b, i), hx, by simp only; rw [if_neg hc]⟩

theorem unbal_loop (s : MScene) (h : SumsUp s) : ∀ (l : List (Option MBody × Nat)) (acc : ℝ × ℝ × Nat), (∀ x ∈ l, x ∈ numbered s) →
    foldR (unbalStep s) acc l =
      let L := l.filterMap fun x => match x.1 with
        | some b => if isMember x.2 b = true ∨ b.dynamic = false then none else some (norm3 (net s x.2 b))
        | none => none
      .ok (L.foldl (fun m f => max f m) acc.1, acc.2.1 + L.sum, acc.2.2 + L.length) := by
  intro l
  induction l with
  | nil => intro acc _; simp [foldR]
  | cons x l ih =>
    intro acc hl
    obtain ⟨y, i⟩ := x
    cases y with
    | none =>
      rw [foldR]
      show Res.bind (.ok acc) _ = _
      rw [Res.bind_ok, ih acc fun x hx => hl x (by simp [hx])]
      simp
    | some b =>
      rw [foldR, unbalStep]
      simp only
      by_cases hc : isMember i b = true ∨ b.dynamic = false
      · rw [if_pos hc, Res.bind_ok, ih acc fun x hx => hl x (by simp [hx])]
        rw [List.filterMap_cons]
        simp only [if_pos hc]
      · rw [if_neg hc]
        have hf : Free s i b := (free_iff s i b).mpr ⟨hl _ (by simp), hc⟩
        rw [bodyForce_net s i b hf h, Res.bind_ok, Res.bind_ok, ih _ fun x hx => hl x (by simp [hx])]
        rw [List.filterMap_cons]
        simp only [if_neg hc, List.foldl_cons, List.sum_cons, List.length_cons]
        congr 3
        · ring
        · ring

/-- sum of the contact forces -/
noncomputable def contactSum (s : MScene) : ℝ := ((s.intrs.filter fun I => I.real).map fun I => norm3 (I.normalForce + I.shearForce)).sum

theorem unbal_eq (s : MScene) (h : SumsUp s) (useMax : Bool) : unbalancedForce s useMax =
    .ok (unbalQuot useMax ((nets s).foldl (fun m f => max f m) 0, (nets s).sum, (nets s).length) (s.intrs.filter fun I => I.real)) := by
  rw [unbalancedForce, unbal_loop s h (numbered s) (0, 0, 0) fun x hx => hx]
  simp only [Res.bind_ok, zero_add]
  rfl

theorem contact_fold (l : List MIntr) : l.foldl (fun x I => x + norm3 (I.normalForce + I.shearForce)) 0 =
    (l.map fun I => norm3 (I.normalForce + I.shearForce)).sum := by
  rw [foldl_sum, zero_add]

theorem foldl_max_spec (l : List ℝ) : ∀ a : ℝ, a ≤ l.foldl (fun m f => max f m) a ∧ (∀ x ∈ l, x ≤ l.foldl (fun m f => max f m) a) ∧
    (l.foldl (fun m f => max f m) a = a ∨ l.foldl (fun m f => max f m) a ∈ l) := by
  induction l with
  | nil => intro a; simp
  | cons y l ih =>
    intro a
    obtain ⟨h1, h2, h3⟩ := ih (max y a)
    rw [List.foldl_cons]
    refine ⟨(le_max_right _ _).trans h1, ?_, ?_⟩
    · intro x hx
      rcases List.mem_cons.mp hx with rfl | hx
      · exact (le_max_left _ _).trans h1
      · exact h2 x hx
    · rcases h3 with h3 | h3
      · rw [h3]
        rcases max_choice y a with h | h
        · rw [h]; right; simp
        · rw [h]; left; rfl
      · right; simp [h3]

theorem sum_le_card_max (l : List ℝ) (M : ℝ) (h : ∀ x ∈ l, x ≤ M) : l.sum ≤ l.length * M := by
  induction l with
  | nil => simp
  | cons y l ih =>
    have := ih fun x hx => h x (by simp [hx])
    have := h y (by simp)
    simp only [List.sum_cons, List.length_cons]
    push_cast
    linarith

/-- **C190 (part).** In a scene with contact forces and free bodies, none of which is a clump with a force of its own or under
gravity, the unbalanced force is the mean (or greatest) resultant on the free bodies over the mean contact force.  It is not
negative, the mean is not above the greatest, and it is zero exactly if all free bodies are in equilibrium. -/
theorem C190_ratio_partial (s : MScene) (h : SumsUp s) (hc : 0 < contactSum s) (hb : ∃ i b, Free s i b) :
    ∃ mean most : ℝ, unbalancedForce s false = .ok (some mean) ∧ unbalancedForce s true = .ok (some most) ∧
      mean = ((nets s).sum / (nets s).length) / (contactSum s / (s.intrs.filter fun I => I.real).length) ∧
      (∀ i b, Free s i b → norm3 (net s i b) ≤ most * (contactSum s / (s.intrs.filter fun I => I.real).length)) ∧
      (∃ i b, Free s i b ∧ norm3 (net s i b) = most * (contactSum s / (s.intrs.filter fun I => I.real).length)) ∧
      0 ≤ mean ∧ mean ≤ most ∧
      (mean = 0 ↔ ∀ i b, Free s i b → net s i b = 0) ∧ (most = 0 ↔ ∀ i b, Free s i b → net s i b = 0) := by
  have hlen : (s.intrs.filter fun I => I.real).length ≠ 0 := by
    intro h0
    rw [contactSum, List.length_eq_zero_iff.mp h0] at hc
    simp at hc
  have hn : (nets s).length ≠ 0 := by
    intro h0
    obtain ⟨i, b, hf⟩ := hb
    have := (mem_nets s _).mpr ⟨i, b, hf, rfl⟩
    rw [List.length_eq_zero_iff.mp h0] at this; cases this
  have hc' : ¬ ((s.intrs.filter fun I => I.real).map fun I => norm3 (I.normalForce + I.shearForce)).sum = 0 := hc.ne'
  have e1 : unbalancedForce s false = .ok (some ((nets s).sum / (nets s).length / (contactSum s / (s.intrs.filter fun I => I.real).length))) := by
    rw [unbal_eq s h, unbalQuot, contact_fold, if_neg hlen, if_neg hc', if_neg (by decide), if_neg hn]
    rfl
  have e2 : unbalancedForce s true = .ok (some ((nets s).foldl (fun m f => max f m) 0 / (contactSum s / (s.intrs.filter fun I => I.real).length))) := by
    rw [unbal_eq s h, unbalQuot, contact_fold, if_neg hlen, if_neg hc', if_pos rfl]
    rfl
  have hq : 0 < contactSum s / (s.intrs.filter fun I => I.real).length := div_pos hc (by exact_mod_cast Nat.pos_of_ne_zero hlen)
  have hnp : (0 : ℝ) < (nets s).length := by exact_mod_cast Nat.pos_of_ne_zero hn
  obtain ⟨m0, m1, m2⟩ := foldl_max_spec (nets s) 0
  have hpos : ∀ x ∈ nets s, 0 ≤ x := by
    intro x hx
    obtain ⟨i, b, -, rfl⟩ := (mem_nets s x).mp hx
    exact norm3_nonneg _
  have hz : (∀ i b, Free s i b → net s i b = 0) ↔ ∀ x ∈ nets s, x = 0 := by
    constructor
    · intro hh x hx
      obtain ⟨i, b, hf, rfl⟩ := (mem_nets s x).mp hx
      rw [hh i b hf, norm3_zero]
    · intro hh i b hf
      exact norm3_eq_zero.mp (hh _ ((mem_nets s _).mpr ⟨i, b, hf, rfl⟩))
  refine ⟨_, _, e1, e2, rfl, ?_, ?_, ?_, ?_, ?_, ?_⟩
  · intro i b hf
    rw [div_mul_cancel₀ _ hq.ne']
    exact m1 _ ((mem_nets s _).mpr ⟨i, b, hf, rfl⟩)
  · rw [div_mul_cancel₀ _ hq.ne']
    rcases m2 with h2 | h2
    · obtain ⟨i, b, hf⟩ := hb
      have := m1 _ ((mem_nets s _).mpr ⟨i, b, hf, rfl⟩)
      rw [h2] at this ⊢
      exact ⟨i, b, hf, le_antisymm this (norm3_nonneg _)⟩
    · obtain ⟨i, b, hf, e⟩ := (mem_nets s _).mp h2
      exact ⟨i, b, hf, e.symm⟩
  · exact div_nonneg (div_nonneg (List.sum_nonneg hpos) hnp.le) hq.le
  · apply div_le_div_of_nonneg_right _ hq.le
    rw [div_le_iff₀ hnp, mul_comm]
    exact sum_le_card_max _ _ m1
  · rw [hz, div_eq_zero_iff, or_iff_left hq.ne', div_eq_zero_iff, or_iff_left hnp.ne']
    constructor
    · intro h0 x hx
      have := List.single_le_sum hpos x hx
      rw [h0] at this
      exact le_antisymm this (hpos x hx)
    · intro hh
      exact List.sum_eq_zero hh
  · rw [hz, div_eq_zero_iff, or_iff_left hq.ne']
    constructor
    · intro h0 x hx
      have := m1 x hx
      rw [h0] at this
      exact le_antisymm this (hpos x hx)
    · intro hh
      rcases m2 with h2 | h2
      · exact h2
      · exact hh _ h2

/-- **C190 fails without contact forces**: the result is not a number. -/
theorem C190_violated_nan (s : MScene) (h : SumsUp s) (hc : contactSum s = 0) (useMax : Bool) : unbalancedForce s useMax = .ok none := by
  rw [unbal_eq s h, unbalQuot, contact_fold]
  show Res.ok (if _ then _ else if contactSum s = 0 then _ else _) = _
  rw [if_pos hc]
  by_cases h0 : (s.intrs.filter fun I => I.real).length = 0
  · rw [if_pos h0]
  · rw [if_neg h0]

/-- a clump of one sphere held against gravity by a contact with a fixed sphere; `f` is the force on the clump itself -/
noncomputable def heldClump (f : V3) : MScene :=
  { sceneOf [some { ball 0 1 with clumpId := some 1 }, some { ball 0 1 with shape := .clump [(0, 0)], clumpId := some 1 },
      some { ball ![0, 0, -2] 1 with dynamic := false }] with
    gravity := ![0, 0, -1], force := fun i => if i = 0 then ![0, 0, 1] else if i = 1 then f else 0,
    intrs := [{ pressed with id1 := 0, id2 := 2, normalForce := ![0, 0, -1], shearForce := 0, real := true }] }

theorem bodyForce_plain (s : MScene) (i : Nat) (b : MBody) (x : ℝ) (h : norm3 (s.force i + b.mass • s.gravity) = x) (hx : x ≠ 0) :
    bodyForce s i b = .ok x := by
  unfold bodyForce
  simp only
  rw [if_neg (fun hh => hx (h ▸ hh.2)), h]

theorem bodyForce_again (s : MScene) (i : Nat) (b : MBody) (f : V3) (hc : isClump i b = true) (h : s.force i + b.mass • s.gravity = 0)
    (hf : memberForces s (s.force i) (membersOf b) = .ok f) : bodyForce s i b = .ok (norm3 (f + b.mass • s.gravity)) := by
  unfold bodyForce
  simp only
  rw [if_pos ⟨hc, by rw [h, norm3_zero]⟩, hf, Res.bind_ok]

theorem norm_unit (v : V3) (h : sqNorm v = 1) : norm3 v = 1 := by
  have h1 := norm3_sq v
  have h2 := norm3_nonneg v
  rw [h] at h1
  nlinarith

/-- **C190 fails for clumps under gravity**: a clump in equilibrium is reported to be out of it — before the integrator has run (its
own force is zero), because the forces on its members are not looked at, and after the integrator has run (its own force is the
sum over the members), because they are added once more. -/
theorem C190_violated_clump : net (heldClump 0) 1 { ball 0 1 with shape := .clump [(0, 0)], clumpId := some 1 } = 0 ∧
    unbalancedForce (heldClump 0) true = .ok (some 1) ∧ unbalancedForce (heldClump ![0, 0, 1]) true = .ok (some 1) := by
  have hN : norm3 (![0, 0, -1] + 0 : V3) = 1 := norm_unit _ (by simp [sqNorm, dot])
  have hq : ∀ (f : V3) (a c : ℝ) (n : ℕ), a = 1 → unbalQuot true (a, c, n) ((heldClump f).intrs.filter fun I => I.real) = some 1 := by
    intro f a c n ha
    have : ((heldClump f).intrs.filter fun I => I.real) =
      [{ pressed with id1 := 0, id2 := 2, normalForce := ![0, 0, -1], shearForce := 0, real := true }] := rfl
    rw [this, unbalQuot]
    simp only [List.foldl_cons, List.foldl_nil, hN, ha]
    norm_num
  have hs : ∀ f, foldR (unbalStep (heldClump f)) (0, 0, 0) (numbered (heldClump f)) =
      (bodyForce (heldClump f) 1 { ball 0 1 with shape := .clump [(0, 0)], clumpId := some 1 }).bind fun x => .ok (max x 0, 0 + x, 0 + 1) := by
    intro f
    have e : numbered (heldClump f) = [(some { ball 0 1 with clumpId := some 1 }, 0),
      (some { ball 0 1 with shape := .clump [(0, 0)], clumpId := some 1 }, 1), (some { ball ![0, 0, -2] 1 with dynamic := false }, 2)] := rfl
    rw [e, foldR, unbalStep]
    simp only
    rw [if_pos (by left; rfl), Res.bind_ok, foldR, unbalStep]
    simp only
    rw [if_neg (by simp [isMember, isClump, ball])]
    cases bodyForce (heldClump f) 1 { ball 0 1 with shape := .clump [(0, 0)], clumpId := some 1 } with
    | ok x => rfl
    | throws => rfl
    | ub => rfl
  refine ⟨?_, ?_, ?_⟩
  · unfold net
    rw [if_pos rfl]
    apply v3_ext <;> simp [heldClump, membersOf, ball]
  · have hb : bodyForce (heldClump 0) 1 { ball 0 1 with shape := .clump [(0, 0)], clumpId := some 1 } = .ok 1 := by
      have hn : norm3 ((heldClump 0).force 1 + (1 : ℝ) • (heldClump 0).gravity) = 1 := by
        apply norm_unit
        simp [heldClump, sqNorm, dot]
      exact bodyForce_plain _ _ _ 1 hn one_ne_zero
    rw [unbalancedForce, hs, hb, Res.bind_ok, Res.bind_ok, hq 0 _ _ _ (by norm_num)]
  · have hb : bodyForce (heldClump ![0, 0, 1]) 1 { ball 0 1 with shape := .clump [(0, 0)], clumpId := some 1 } = .ok 1 := by
      have hz : (heldClump ![0, 0, 1]).force 1 + (1 : ℝ) • (heldClump ![0, 0, 1]).gravity = 0 := by
        apply v3_ext <;> simp [heldClump]
      have : memberForces (heldClump ![0, 0, 1]) ((heldClump ![0, 0, 1]).force 1) [(0, 0)] = .ok ![0, 0, 2] := by
        show Res.ok _ = _
        congr 1
        apply v3_ext <;> simp [heldClump] <;> norm_num
      rw [bodyForce_again _ 1 _ _ rfl hz this]
      congr 1
      apply norm_unit
      simp [heldClump, sqNorm, dot, ball]
      norm_num
    rw [unbalancedForce, hs, hb, Res.bind_ok, Res.bind_ok, hq _ _ _ _ (by norm_num)]

/-! ### C193 -/

/-- material `k` belongs to a moving body that is not a clump -/
def UsedMoving (s : MScene) (k : Nat) : Prop := ∃ (i : Nat) (b : MBody), s.bodies[i]? = some (some b) ∧ b.clumpId ≠ some i ∧ b.dynamic = true ∧ b.mat = k

theorem friction_loop (angle : ℝ) : ∀ (l : List (Option MBody × Nat)) (fr : List ℝ), (∀ x ∈ l, x.1 ≠ none) →
    ∃ fr', foldR (frictionStep angle) fr l = .ok fr' ∧ fr'.length = fr.length ∧ ∀ k, k < fr.length →
      ((∃ (b : MBody) (i : Nat), (some b, i) ∈ l ∧ b.clumpId ≠ some i ∧ b.dynamic = true ∧ b.mat = k) → fr'[k]? = some angle) ∧
      ((¬ ∃ (b : MBody) (i : Nat), (some b, i) ∈ l ∧ b.clumpId ≠ some i ∧ b.dynamic = true ∧ b.mat = k) → fr'[k]? = fr[k]?) := by
  intro l
  induction l with
  | nil => intro fr _; exact ⟨fr, rfl, rfl, fun k _ => ⟨fun ⟨b, i, h, _⟩ => absurd h List.not_mem_nil, fun _ => rfl⟩⟩
  | cons x l ih =>
    intro fr hx
    obtain ⟨y, i⟩ := x
    cases y with
    | none => exact absurd rfl (hx (none, i) (by simp))
    | some b =>
      by_cases hb : b.clumpId ≠ some i ∧ b.dynamic = true
      · have e : frictionStep angle fr (some b, i) = .ok (fr.set b.mat angle) := by
          rw [frictionStep]; simp only
          rw [if_neg (fun h => hb.1 ((isClump_iff i b).mp h)), if_pos hb.2]
        obtain ⟨fr', h1, h2, h3⟩ := ih (fr.set b.mat angle) fun x h => hx x (by simp [h])
        refine ⟨fr', by rw [foldR, e, Res.bind_ok, h1], by simpa using h2, fun k hk => ?_⟩
        obtain ⟨h4, h5⟩ := h3 k (by simpa using hk)
        by_cases hl : ∃ (b : MBody) (i : Nat), (some b, i) ∈ l ∧ b.clumpId ≠ some i ∧ b.dynamic = true ∧ b.mat = k
        · refine ⟨fun _ => h4 hl, fun hn => ?_⟩
          obtain ⟨b', i', h', q⟩ := hl
          exact absurd ⟨b', i', by simp [h'], q⟩ hn
        · by_cases hm : b.mat = k
          · refine ⟨fun _ => ?_, fun hn => absurd ⟨b, i, by simp, hb.1, hb.2, hm⟩ hn⟩
            rw [h5 hl, hm, List.getElem?_set_self hk]
          · refine ⟨fun ⟨b', i', h', q1, q2, q3⟩ => ?_, fun _ => ?_⟩
            · rcases List.mem_cons.mp h' with h' | h'
              · cases h'; exact absurd q3 hm
              · exact absurd ⟨b', i', h', q1, q2, q3⟩ hl
            · rw [h5 hl, List.getElem?_set_ne hm]
      · have e : frictionStep angle fr (some b, i) = .ok fr := by
          rw [frictionStep]; simp only
          by_cases hc : isClump i b = true
          · rw [if_pos hc]
          · rw [if_neg hc, if_neg]
            intro hd
            exact hb ⟨fun h => hc ((isClump_iff i b).mpr h), hd⟩
        obtain ⟨fr', h1, h2, h3⟩ := ih fr fun x h => hx x (by simp [h])
        refine ⟨fr', by rw [foldR, e, Res.bind_ok, h1], h2, fun k hk => ?_⟩
        obtain ⟨h4, h5⟩ := h3 k hk
        refine ⟨fun ⟨b', i', h', q1, q2, q3⟩ => ?_, fun hn => h5 fun ⟨b', i', h', q⟩ => hn ⟨b', i', by simp [h'], q⟩⟩
        rcases List.mem_cons.mp h' with h' | h'
        · cases h'; exact absurd ⟨q1, q2⟩ hb
        · exact h4 ⟨b', i', h', q1, q2, q3⟩

/-- **C193 (part).** If no body was ever erased, after `setContactFriction` the materials of all moving bodies have the angle given,
materials used by fixed bodies only are unchanged, and every contact has the tangent of the smaller angle of its two bodies. -/
theorem C193_friction_partial (s : MScene) (angle : ℝ) (hall : ∀ o ∈ s.bodies, o ≠ none)
    (hmat : ∀ (i : Nat) (b : MBody), s.bodies[i]? = some (some b) → b.mat < s.friction.length) (hj : JoinsBodies s) :
    ∃ s', setContactFriction s angle = .ok s' ∧ s'.bodies = s.bodies ∧ s'.friction.length = s.friction.length ∧
      (∀ k, k < s.friction.length → UsedMoving s k → s'.friction[k]? = some angle) ∧
      (∀ k, k < s.friction.length → ¬ UsedMoving s k → s'.friction[k]? = s.friction[k]?) ∧
      s'.intrs.length = s.intrs.length ∧
      ∀ (k : Nat) (I : MIntr), s.intrs[k]? = some I → ∃ t : ℝ, s'.intrs[k]? = some { I with tanPhi := t } ∧
        (I.real = true → ∀ (b1 b2 : MBody) (f1 f2 : ℝ), s.bodies[I.id1]? = some (some b1) → s.bodies[I.id2]? = some (some b2) →
          s'.friction[b1.mat]? = some f1 → s'.friction[b2.mat]? = some f2 → t = Real.tan (min f1 f2)) := by
  obtain ⟨fr, h1, h2, h3⟩ := friction_loop angle (numbered s) s.friction (by
    rintro ⟨y, i⟩ hx
    rw [mem_numbered] at hx
    exact hall y (List.mem_of_getElem? hx))
  have hu : ∀ k, UsedMoving s k ↔ ∃ (b : MBody) (i : Nat), (some b, i) ∈ numbered s ∧ b.clumpId ≠ some i ∧ b.dynamic = true ∧ b.mat = k := by
    intro k
    constructor
    · rintro ⟨i, b, h, q⟩; exact ⟨b, i, (mem_numbered s _ i).mpr h, q⟩
    · rintro ⟨b, i, h, q⟩; exact ⟨i, b, (mem_numbered s _ i).mp h, q⟩
  have hI : ∀ I ∈ s.intrs, ∃ t, contactFriction { s with friction := fr } I = .ok { I with tanPhi := t } ∧
      (I.real = true → ∀ (b1 b2 : MBody) (f1 f2 : ℝ), s.bodies[I.id1]? = some (some b1) → s.bodies[I.id2]? = some (some b2) →
        fr[b1.mat]? = some f1 → fr[b2.mat]? = some f2 → t = Real.tan (min f1 f2)) := by
    intro I hI
    rw [contactFriction]
    by_cases hr : I.real = false
    · rw [if_pos hr]
      exact ⟨I.tanPhi, rfl, fun h => by rw [hr] at h; cases h⟩
    · rw [if_neg hr]
      obtain ⟨⟨b1, hb1⟩, b2, hb2⟩ := hj I hI (by simpa using hr)
      rw [body_ok (s := { s with friction := fr }) hb1, Res.bind_ok, body_ok (s := { s with friction := fr }) hb2, Res.bind_ok]
      have l1 : b1.mat < fr.length := by rw [h2]; exact hmat _ _ hb1
      have l2 : b2.mat < fr.length := by rw [h2]; exact hmat _ _ hb2
      simp only [List.getElem?_eq_getElem l1, List.getElem?_eq_getElem l2]
      refine ⟨_, rfl, fun _ c1 c2 f1 f2 hc1 hc2 hf1 hf2 => ?_⟩
      rw [hb1] at hc1; cases hc1
      rw [hb2] at hc2; cases hc2
      rw [List.getElem?_eq_getElem l1] at hf1
      rw [List.getElem?_eq_getElem l2] at hf2
      rw [Option.some.inj hf1, Option.some.inj hf2]
  have hloop : ∀ (l : List MIntr) (acc : List MIntr), (∀ I ∈ l, I ∈ s.intrs) → ∃ l',
      foldR (fun l I => (contactFriction { s with friction := fr } I).bind fun J => .ok (l ++ [J])) acc l = .ok (acc ++ l') ∧
      List.Forall₂ (fun I J => contactFriction { s with friction := fr } I = .ok J) l l' := by
    intro l
    induction l with
    | nil => intro acc _; exact ⟨[], by simp [foldR], .nil⟩
    | cons I l ih =>
      intro acc hl
      obtain ⟨t, ht, -⟩ := hI I (hl I (by simp))
      obtain ⟨l', e, f⟩ := ih (acc ++ [{ I with tanPhi := t }]) fun J hJ => hl J (by simp [hJ])
      refine ⟨{ I with tanPhi := t } :: l', ?_, .cons ht f⟩
      rw [foldR, ht, Res.bind_ok, Res.bind_ok, e]
      simp
  obtain ⟨l', e, f⟩ := hloop s.intrs [] fun _ h => h
  rw [List.nil_append] at e
  have hset : setContactFriction s angle = .ok { s with friction := fr, intrs := l' } := by
    rw [setContactFriction, h1, Res.bind_ok]
    show ((foldR _ [] s.intrs).bind _) = _
    rw [e, Res.bind_ok]
  refine ⟨_, hset, rfl, h2, fun k hk hm => (h3 k hk).1 ((hu k).mp hm), fun k hk hm => (h3 k hk).2 (fun h => hm ((hu k).mpr h)),
    f.length_eq.symm, fun k I hk => ?_⟩
  have hlen : k < s.intrs.length := by
    by_contra hn
    rw [List.getElem?_eq_none (not_lt.mp hn)] at hk; cases hk
  have hlen' : k < l'.length := by rw [← f.length_eq]; exact hlen
  have hf := (List.forall₂_iff_get.mp f).2 k hlen hlen'
  simp only [List.get_eq_getElem] at hf
  have hIk : s.intrs[k] = I := by rw [List.getElem?_eq_getElem hlen] at hk; exact Option.some.inj hk
  obtain ⟨t, ht, hspec⟩ := hI I (List.mem_of_getElem? hk)
  rw [hIk, ht] at hf
  refine ⟨t, ?_, hspec⟩
  show l'[k]? = _
  rw [List.getElem?_eq_getElem hlen', ← Res.ok.inj hf]

/-- a moving and a fixed sphere of one material -/
noncomputable def sharing : MScene := { sceneOf [some (ball 0 1), some { ball ![2, 0, 0] 1 with dynamic := false }] with friction := [1] }

/-- **C193 fails for fixed bodies that share their material with moving ones**: "the friction for non-dynamic bodies is not modified",
but that of the shared material is. -/
theorem C193_violated_shared : ∃ s', setContactFriction sharing 0 = .ok s' ∧
    ∃ b, s'.bodies[1]? = some (some b) ∧ b.dynamic = false ∧ sharing.friction[b.mat]? = some 1 ∧ s'.friction[b.mat]? = some 0 :=
  ⟨{ sharing with friction := [0] }, rfl, _, rfl, rfl, rfl, rfl⟩

/-- **C193 fails after a body was erased**: the empty place is dereferenced. -/
theorem C193_violated_erased (s : MScene) (angle : ℝ) (l : List (Option MBody)) (h : s.bodies = none :: l) :
    setContactFriction s angle = .ub := by
  rw [setContactFriction, numbered, h]
  rfl

/-! ### Cases -/

example : WellFormed (heldClump 0) ∧ JoinsBodies (heldClump 0) := by
  refine ⟨⟨by simp [heldClump, sceneOf], ?_, ?_⟩, ?_⟩
  · intro i b c hb hc
    have hb := List.mem_of_getElem? hb
    simp only [heldClump, sceneOf, List.mem_cons, Option.some.injEq, List.not_mem_nil, or_false] at hb
    rcases hb with rfl | rfl | rfl
    · simp only [Option.some.injEq] at hc
      subst hc
      exact ⟨_, _, rfl, rfl, rfl⟩
    · simp only [Option.some.injEq] at hc
      subst hc
      exact ⟨_, _, rfl, rfl, rfl⟩
    · simp [ball] at hc
  · intro i b r hb hr
    match i, hb with
    | 0, hb =>
      simp only [heldClump, sceneOf, List.getElem?_cons_zero, Option.some.injEq] at hb
      subst hb; simp
    | 1, hb =>
      simp only [heldClump, sceneOf, List.getElem?_cons_succ, List.getElem?_cons_zero, Option.some.injEq] at hb
      subst hb
      simp at hr
    | 2, hb =>
      simp only [heldClump, sceneOf, List.getElem?_cons_succ, List.getElem?_cons_zero, Option.some.injEq] at hb
      subst hb
      simp [ball]
    | n + 3, hb => simp [heldClump, sceneOf] at hb
  · intro I hI _
    simp only [heldClump, List.mem_singleton] at hI
    subst hI
    exact ⟨⟨_, rfl⟩, _, rfl⟩

example : SumsUp (sceneOf [some (ball 0 1)]) := by
  rintro i b ⟨h, -, -⟩ hc
  have h := List.mem_of_getElem? h
  simp only [sceneOf, List.mem_singleton, Option.some.injEq] at h
  subst h
  simp [ball] at hc

end Verif.Meas
