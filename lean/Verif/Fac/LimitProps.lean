import Verif.Fac.Model
import Verif.Bodies.Props

/-!
# DomainLimiter: C180
-/
namespace Verif.Fac
open Verif.Mech Verif.Bodies
open scoped Classical

/-! ## C180 -/

/-- Body `k` is one the limiter is for: not filtered by the mask, a free sphere or a clump as a whole, and with its position out of the box. -/
def OutBody (info : Nat → Info) (s : BSt) (L : Lim) (k : Int) : Prop :=
  ∃ r, At s k r ∧ (L.mask ≤ 0 ∨ (info r).mask &&& L.mask.toNat ≠ 0) ∧ ((s.heap r).clumpId = -1 ∧ (info r).radius ≠ none ∨ (s.heap r).clumpId = k) ∧
    ∃ a, (info r).pos a < L.lo a ∨ L.hi a < (info r).pos a

/-- The mass of body `k`. -/
def massAt (info : Nat → Info) (s : BSt) (k : Int) : ℝ := match slotAt s k with
  | some (some r) => (info r).mass
  | _ => 0

/-- The volume of body `k`, if it is a sphere. -/
noncomputable def volumeAt (info : Nat → Info) (s : BSt) (k : Int) : ℝ := match slotAt s k with
  | some (some r) => (match (info r).radius with | some q => 4 / 3 * Real.pi * q ^ 3 | none => 0)
  | _ => 0

/-- The body at `j` is one of `ids` or a member of one of them. -/
def Gone (s : BSt) (ids : List Int) (j : Int) : Prop := j ∈ ids ∨ ∃ o, look s j = some o ∧ o.clumpId ∈ ids

/-! ### The first loop -/

/-- The condition of the first loop. -/
def OutRef (info : Nat → Info) (heap : Nat → BObj) (L : Lim) (r : Nat) : Prop :=
  ¬ (maskSkips L.mask (info r).mask ∨ (heap r).isClumpMember) ∧ ((info r).radius.isSome ∨ (heap r).isClump) ∧ outside L (info r).pos

noncomputable def volR (info : Nat → Info) (r : Nat) : ℝ := sphVol (info r).radius

noncomputable def outs (info : Nat → Info) (heap : Nat → BObj) (L : Lim) (t : List (Option Nat)) : List Nat := (t.filterMap fun x => x).filter fun r => OutRef info heap L r

theorem collect_eq (info : Nat → Info) (heap : Nat → BObj) (t : List (Option Nat)) : ∀ L, collect info heap t L = ((outs info heap L t).map fun r => (heap r).id,
    { L with nDeleted := L.nDeleted + (outs info heap L t).length, mDeleted := L.mDeleted + ((outs info heap L t).map fun r => (info r).mass).sum, vDeleted := L.vDeleted + ((outs info heap L t).map (volR info)).sum }) := by
  induction t with
  | nil => intro L; simp [collect, outs]
  | cons x t ih =>
    intro L
    cases x with
    | none => rw [collect, ih]; rfl
    | some r =>
      have hcons : outs info heap L (some r :: t) = if OutRef info heap L r then r :: outs info heap L t else outs info heap L t := by
        rw [outs, show (some r :: t).filterMap (fun x => x) = r :: t.filterMap (fun x => x) from rfl, List.filter_cons]
        by_cases h : OutRef info heap L r <;> simp [h, outs]
      rw [collect]
      by_cases h1 : maskSkips L.mask (info r).mask ∨ (heap r).isClumpMember
      · rw [if_pos h1, ih, hcons, if_neg (fun h => h.1 h1)]
      · rw [if_neg h1]
        by_cases h2 : ((info r).radius.isSome ∨ (heap r).isClump) ∧ outside L (info r).pos
        · rw [if_pos h2, hcons, if_pos ⟨h1, h2⟩]
          dsimp only
          rw [ih]
          have : ∀ n m v, outs info heap { L with nDeleted := n, mDeleted := m, vDeleted := v } t = outs info heap L t := fun _ _ _ => rfl
          rw [this]
          simp only [List.map_cons, List.sum_cons, List.length_cons, Prod.mk.injEq, true_and]
          rw [show sphVol (info r).radius = volR info r from rfl]
          congr 1
          · push_cast; ring
          · ring
          · ring
        · rw [if_neg h2, ih, hcons, if_neg (fun h => h2 h.2)]

theorem mem_outs {info : Nat → Info} {s : BSt} {L : Lim} {r : Nat} : r ∈ outs info s.heap L s.slots ↔ (∃ k, At s k r) ∧ OutRef info s.heap L r := by
  rw [outs, List.mem_filter, List.mem_filterMap]
  constructor
  · rintro ⟨⟨x, hx, rfl⟩, h⟩
    refine ⟨?_, by simpa using h⟩
    obtain ⟨i, hi⟩ := List.mem_iff_getElem?.mp hx
    exact ⟨i, by rw [At, slotAt, if_pos (by omega)]; simpa using hi⟩
  · rintro ⟨⟨k, hk⟩, h⟩
    refine ⟨⟨some r, ?_, rfl⟩, by simpa using h⟩
    rw [At, slotAt] at hk
    split_ifs at hk
    exact List.mem_of_getElem? hk

theorem ids_sorted (heap : Nat → BObj) (t : List (Option Nat)) : ∀ off : Int, (∀ (i r : Nat), t[i]? = some (some r) → (heap r).id = off + i) →
    ((t.filterMap fun x => x).map fun r => (heap r).id).Pairwise (· < ·) ∧ ∀ r ∈ t.filterMap fun x => x, off ≤ (heap r).id := by
  induction t with
  | nil => intro off _; simp
  | cons x t ih =>
    intro off h
    obtain ⟨h1, h2⟩ := ih (off + 1) fun i r hi => by
      have := h (i + 1) r (by simpa using hi)
      push_cast at this; omega
    cases x with
    | none => exact ⟨h1, fun r hr => by have := h2 r hr; omega⟩
    | some r =>
      have hr := h 0 r rfl
      rw [show (some r :: t).filterMap (fun x => x) = r :: t.filterMap (fun x => x) from rfl, List.map_cons, List.pairwise_cons]
      refine ⟨⟨?_, h1⟩, ?_⟩
      · intro y hy
        obtain ⟨z, hz, rfl⟩ := List.mem_map.mp hy
        have := h2 z hz
        push_cast at hr; omega
      · intro z hz
        rcases List.mem_cons.mp hz with rfl | hz
        · push_cast at hr; omega
        · have := h2 z hz; omega

/-! ### The second loop -/

theorem eraseAll_ok (ids : List Int) : ∀ {s : BSt}, CHist s → ids.Nodup → (∀ k ∈ ids, ∃ o, look s k = some o ∧ (o.clumpId = -1 ∨ o.clumpId = k)) →
    ∃ s', eraseAll ids s = .ok s' () ∧ CHist s' ∧ ∀ j, look s' j = if Gone s ids j then none else look s j := by
  induction ids with
  | nil =>
    intro s h _ _
    refine ⟨s, rfl, h, fun j => ?_⟩
    rw [if_neg]
    rintro (h | ⟨o, -, h⟩) <;> simp at h
  | cons k t ih =>
    intro s h hnd hk
    rw [List.nodup_cons] at hnd
    obtain ⟨o, ho, hc⟩ := hk k (by simp)
    obtain ⟨r, hr, -⟩ := look_some ho
    obtain ⟨hk0, hk1⟩ := hr.nonneg
    have h1 : ∃ s₁, erase k true s = .ok s₁ true ∧ ∀ j, look s₁ j = if Gone s [k] j then none else look s j := by
      by_cases hfree : o.clumpId = -1
      · obtain ⟨s₁, e1, e2⟩ := C05_erase_free h true ho hfree
        refine ⟨s₁, e1, fun j => ?_⟩
        rw [e2]
        by_cases hj : j = k
        · rw [if_pos hj, if_pos (show Gone s [k] j from Or.inl (by simp [hj]))]
        · rw [if_neg hj, if_neg]
          rintro (h' | ⟨o', ho', h'⟩)
          · simp at h'; exact hj h'
          · simp only [List.mem_singleton] at h'
            obtain ⟨oc, ms, a, b, c, -⟩ := h.good.cons.owner j o' ho' (by omega)
            rw [h', ho] at a
            obtain rfl := Option.some.inj a
            omega
      · have hcl : o.clumpId = k := hc.resolve_left hfree
        obtain ⟨oc, ms, a, b, -⟩ := h.good.cons.owner k o ho hfree
        rw [hcl, ho] at a
        obtain rfl := Option.some.inj a
        obtain ⟨s₁, e1, e2⟩ := C05_erase_clump_all h ho hcl b
        refine ⟨s₁, e1, fun j => ?_⟩
        rw [e2]
        have : (j = k ∨ j ∈ ms) ↔ Gone s [k] j := by
          constructor
          · rintro (rfl | hj)
            · exact Or.inl (by simp)
            · obtain ⟨o', ho', hc', -⟩ := h.good.cons.listed k o ms j ho b hj
              exact Or.inr ⟨o', ho', by simp [hc']⟩
          · rintro (hj | ⟨o', ho', hj⟩)
            · exact Or.inl (by simpa using hj)
            · simp only [List.mem_singleton] at hj
              by_cases hjk : j = k
              · exact Or.inl hjk
              · obtain ⟨oc, ms', a, b', -, d⟩ := h.good.cons.owner j o' ho' (by omega)
                rw [hj, ho] at a
                obtain rfl := Option.some.inj a
                rw [b] at b'
                obtain rfl := Option.some.inj b'
                exact Or.inr (d (by omega))
        by_cases hg : Gone s [k] j
        · rw [if_pos (this.mpr hg), if_pos hg]
        · rw [if_neg (fun x => hg (this.mp x)), if_neg hg]
    obtain ⟨s₁, e1, e2⟩ := h1
    have h1 : CHist s₁ := CHist.erase h hk0 hk1 (Or.inl ⟨_, e1⟩)
    have hk' : ∀ k' ∈ t, ∃ o, look s₁ k' = some o ∧ (o.clumpId = -1 ∨ o.clumpId = k') := by
      intro k' hkt
      obtain ⟨o', ho', hc'⟩ := hk k' (List.mem_cons_of_mem _ hkt)
      refine ⟨o', ?_, hc'⟩
      have hne : k' ≠ k := by rintro rfl; exact hnd.1 hkt
      rw [e2, if_neg, ho']
      rintro (hx | ⟨o'', ho'', hx⟩)
      · simp at hx; exact hne hx
      · rw [ho'] at ho''
        obtain rfl := Option.some.inj ho''
        simp only [List.mem_singleton] at hx
        rcases hc' with hc' | hc' <;> omega
    obtain ⟨s', f1, f2, f3⟩ := ih h1 hnd.2 hk'
    refine ⟨s', ?_, f2, fun j => ?_⟩
    · rw [eraseAll] at f1 ⊢
      simp only [forEach, bind_eq, e1, pure_eq]
      exact f1
    · rw [f3]
      by_cases hg : Gone s [k] j
      · have hl : look s₁ j = none := by rw [e2, if_pos hg]
        have hg' : Gone s (k :: t) j := by
          rcases hg with hg | ⟨o', ho', hg⟩
          · exact Or.inl (by simp at hg; simp [hg])
          · exact Or.inr ⟨o', ho', by simp at hg; simp [hg]⟩
        rw [hl, if_pos hg']
        split_ifs <;> rfl
      · have hl : look s₁ j = look s j := by rw [e2, if_neg hg]
        have hiff : Gone s₁ t j ↔ Gone s (k :: t) j := by
          rw [Gone, Gone, hl]
          constructor
          · rintro (hx | ⟨o', ho', hx⟩)
            · exact Or.inl (List.mem_cons_of_mem _ hx)
            · exact Or.inr ⟨o', ho', List.mem_cons_of_mem _ hx⟩
          · rintro (hx | ⟨o', ho', hx⟩)
            · rcases List.mem_cons.mp hx with rfl | hx
              · exact absurd (Or.inl (by simp)) hg
              · exact Or.inl hx
            · rcases List.mem_cons.mp hx with hx | hx
              · exact absurd (Or.inr ⟨o', ho', by simp [hx]⟩) hg
              · exact Or.inr ⟨o', ho', hx⟩
        rw [hl]
        by_cases hx : Gone s₁ t j
        · rw [if_pos hx, if_pos (hiff.mp hx)]
        · rw [if_neg hx, if_neg (fun y => hx (hiff.mpr y))]

/-- C180.  The limiter erases the free spheres and the clumps that are out of its box and match its mask, the clumps with all their members, and nothing else; and it counts
each body erased as a whole, with its mass, and the volumes of the spheres. -/
theorem C180_limiter {info : Nat → Info} {s : BSt} (h : CHist s) (L : Lim) : ∃ s' : BSt, ∃ ids : List Int, limit info s L =
      (.ok s' (), { L with nDeleted := L.nDeleted + ids.length, mDeleted := L.mDeleted + (ids.map (massAt info s)).sum, vDeleted := L.vDeleted + (ids.map (volumeAt info s)).sum }) ∧
    ids.Nodup ∧ (∀ k, k ∈ ids ↔ OutBody info s L k) ∧ CHist s' ∧
    ∀ j, look s' j = if OutBody info s L j ∨ (∃ o, look s j = some o ∧ OutBody info s L o.clumpId) then none else look s j := by
  have hI := h.good.ids
  set R := outs info s.heap L s.slots with hR
  have hid : ∀ r ∈ R, At s (s.heap r).id r := by
    intro r hr
    obtain ⟨⟨k, hk⟩, -⟩ := mem_outs.mp hr
    rwa [(hI k r hk).1]
  have hnd : (R.map fun r => (s.heap r).id).Nodup := by
    have := (ids_sorted s.heap s.slots 0 fun i r hi => by
      have hat : At s i r := by rw [At, slotAt, if_pos (by omega)]; simpa using hi
      have := (hI i r hat).1
      omega).1
    rw [hR, outs]
    exact (this.sublist ((List.filter_sublist).map _)).imp fun h => ne_of_lt h
  have hmem : ∀ k, k ∈ (R.map fun r => (s.heap r).id) ↔ OutBody info s L k := by
    intro k
    rw [List.mem_map]
    constructor
    · rintro ⟨r, hr, rfl⟩
      have hat := hid r hr
      obtain ⟨-, h1, h2, h3⟩ := mem_outs.mp hr
      have hge := hat.nonneg.1
      push Not at h1
      refine ⟨r, hat, ?_, ?_, ?_⟩
      · have := h1.1
        rw [maskSkips] at this
        by_cases hm : L.mask ≤ 0
        · exact Or.inl hm
        · exact Or.inr fun h0 => this ⟨by omega, h0⟩
      · have hmm := h1.2
        simp only [BObj.isClumpMember, idNone] at hmm
        simp only [BObj.isClump, idNone] at h2
        by_cases hc : (s.heap r).clumpId = -1
        · left
          refine ⟨hc, ?_⟩
          simpa [hc, Option.isSome_iff_ne_none] using h2
        · right
          by_contra hne
          apply hmm
          simp [hc, Ne.symm hne]
      · rcases h3 with h | h | h | h | h | h
        · exact ⟨0, Or.inl h⟩
        · exact ⟨0, Or.inr h⟩
        · exact ⟨1, Or.inl h⟩
        · exact ⟨1, Or.inr h⟩
        · exact ⟨2, Or.inl h⟩
        · exact ⟨2, Or.inr h⟩
    · rintro ⟨r, hat, h1, h2, a, h3⟩
      have hk := (hI k r hat).1
      have hge := hat.nonneg.1
      refine ⟨r, mem_outs.mpr ⟨⟨k, hat⟩, ?_, ?_, ?_⟩, hk⟩
      · rintro (hm | hm)
        · rcases h1 with h1 | h1
          · exact absurd hm.1 (not_lt.mpr h1)
          · exact h1 hm.2
        · simp only [BObj.isClumpMember, idNone, hk] at hm
          rcases h2 with h2 | h2
          · simp [h2.1] at hm
          · simp [h2] at hm
      · rcases h2 with h2 | h2
        · exact Or.inl (Option.isSome_iff_ne_none.mpr h2.2)
        · right
          simp only [BObj.isClump, idNone, hk, h2]
          simp; omega
      · rw [outside]
        fin_cases a
        · rcases h3 with h | h
          · exact Or.inl h
          · exact Or.inr (Or.inl h)
        · rcases h3 with h | h
          · exact Or.inr (Or.inr (Or.inl h))
          · exact Or.inr (Or.inr (Or.inr (Or.inl h)))
        · rcases h3 with h | h
          · exact Or.inr (Or.inr (Or.inr (Or.inr (Or.inl h))))
          · exact Or.inr (Or.inr (Or.inr (Or.inr (Or.inr h))))
  obtain ⟨s', e1, e2, e3⟩ := eraseAll_ok (R.map fun r => (s.heap r).id) h hnd fun k hk => by
    obtain ⟨r, hat, -, h2, -⟩ := (hmem k).mp hk
    exact ⟨_, look_at hat, h2.imp And.left _root_.id⟩
  refine ⟨s', R.map fun r => (s.heap r).id, ?_, hnd, hmem, e2, fun j => ?_⟩
  · rw [limit, collect_eq]
    dsimp only
    rw [← hR, e1]
    have hm : (R.map fun r => (s.heap r).id).map (massAt info s) = R.map fun r => (info r).mass := by
      rw [List.map_map]
      apply List.map_congr_left
      intro r hr
      have := hid r hr
      rw [At] at this
      simp only [Function.comp, massAt, this]
    have hv : (R.map fun r => (s.heap r).id).map (volumeAt info s) = R.map (volR info) := by
      rw [List.map_map]
      apply List.map_congr_left
      intro r hr
      have := hid r hr
      rw [At] at this
      simp only [Function.comp, volumeAt, this]
      rfl
    rw [hm, hv, List.length_map]
  · rw [e3]
    have : Gone s (R.map fun r => (s.heap r).id) j ↔ OutBody info s L j ∨ ∃ o, look s j = some o ∧ OutBody info s L o.clumpId := by
      rw [Gone, hmem]
      simp only [hmem]
    by_cases hg : Gone s (R.map fun r => (s.heap r).id) j
    · rw [if_pos hg, if_pos (this.mp hg)]
    · rw [if_neg hg, if_neg (fun x => hg (this.mpr x))]

/-- Bodies 4 and 5 are clumps of two spheres each; clump 5 is out. -/
def demoInfo (r : Nat) : Info := ⟨if r < 4 then some 1 else none, if r = 5 then ![2, 0, 0] else 0, 1, 1⟩

example : ∃ s' L', limit demoInfo demoTwoClumps ⟨![-1, -1, -1], ![1, 1, 1], -1, 0, 0, 0⟩ = (.ok s' (), L') ∧ look s' 2 = none ∧ look s' 5 = none ∧ look s' 0 = look demoTwoClumps 0 := by
  obtain ⟨s', ids, h1, -, h3, -, h5⟩ := C180_limiter (info := demoInfo) demoTwoClumps_hist ⟨![-1, -1, -1], ![1, 1, 1], -1, 0, 0, 0⟩
  have h5out : OutBody demoInfo demoTwoClumps ⟨![-1, -1, -1], ![1, 1, 1], -1, 0, 0, 0⟩ 5 :=
    ⟨5, rfl, Or.inl (by norm_num), Or.inr rfl, 0, Or.inr (by simp [demoInfo])⟩
  have h4 : ∀ k r, At demoTwoClumps k r → r ≠ 5 → ¬ OutBody demoInfo demoTwoClumps ⟨![-1, -1, -1], ![1, 1, 1], -1, 0, 0, 0⟩ k := by
    rintro k r hat hne ⟨r', hat', -, -, a, ha⟩
    obtain rfl := hat.uniq hat'
    simp only [demoInfo, if_neg hne] at ha
    fin_cases a <;> simp at ha <;> norm_num at ha
  refine ⟨s', _, h1, ?_, ?_, ?_⟩
  · rw [h5, if_pos (Or.inr ⟨_, rfl, h5out⟩)]
  · rw [h5, if_pos (Or.inl h5out)]
  · rw [h5, if_neg]
    rintro (h | ⟨o, ho, h⟩)
    · exact h4 0 0 rfl (by norm_num) h
    · obtain rfl := Option.some.inj ho
      exact h4 4 4 rfl (by norm_num) h

end Verif.Fac
