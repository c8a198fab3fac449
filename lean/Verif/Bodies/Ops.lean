import Verif.Bodies.Cons
/-! # Effect of the operations on a consistent container -/
namespace Verif.Bodies
open Verif

/-- objects with a negative id are ready to be inserted: they own nothing and belong to nobody -/
def Loose (s : BSt) : Prop := ∀ r, r < s.next → (s.heap r).id < 0 →
  (s.heap r).clumpId = -1 ∧ ((s.heap r).members = none ∨ (s.heap r).members = some [])

/-- ids match slots, membership is consistent, removed bodies can be inserted again -/
structure Good (s : BSt) : Prop where
  ids : IdInv s
  cons : ConsV (look s)
  loose : Loose s

/-- `s'` is a good state with view `V'` and as many slots and objects as `s` -/
structure Eff (s s' : BSt) (V' : Int → Option BObj) : Prop where
  ids : IdInv s'
  loose : Loose s'
  view : look s' = V'
  next : s'.next = s.next
  len : s'.slots.length = s.slots.length

theorem put {s : BSt} (hI : IdInv s) (hL : Loose s) {k : Int} {r : Nat} (h : At s k r) {o : BObj}
    (ho : o.id = k) :
    Eff s { s with heap := upd s.heap r o } (up (look s) k (some o)) := by
  refine ⟨hI.upd r o (by rw [(hI k r h).1, ho]), ?_, ?_, rfl, rfl⟩
  · intro x hx hneg
    by_cases e : x = r
    · subst e
      have h1 : (upd s.heap x o x).id < 0 := hneg
      rw [upd_same] at h1
      have := (At.nonneg h).1
      omega
    · have h1 : (upd s.heap r o x).id < 0 := hneg
      rw [upd_other _ _ e] at h1
      show (upd s.heap r o x).clumpId = -1 ∧ _
      rw [upd_other _ _ e]
      have := hL x hx h1
      refine ⟨this.1, ?_⟩
      show (upd s.heap r o x).members = none ∨ (upd s.heap r o x).members = some []
      rw [upd_other _ _ e]; exact this.2
  · funext j
    rw [look_upd hI o h]; rfl

theorem drop {s : BSt} (hI : IdInv s) (hL : Loose s) {k : Int} (h0 : 0 ≤ k) :
    Eff s { s with slots := s.slots.set k.toNat none } (up (look s) k none) := by
  refine ⟨hI.drop k, hL, ?_, rfl, by simp⟩
  funext j
  rw [look_drop s h0]; rfl

/-- the end of a plain erase -/
theorem remove {s : BSt} (hI : IdInv s) (hL : Loose s) {k : Int} {r : Nat} (h : At s k r) {o : BObj}
    (ho : o.clumpId = -1 ∧ (o.members = none ∨ o.members = some [])) :
    Eff s { s with heap := upd s.heap r o, slots := s.slots.set k.toNat none } (up (look s) k none) := by
  refine ⟨hI.remove h o, ?_, ?_, rfl, by simp⟩
  · intro x hx hneg
    by_cases e : x = r
    · subst e
      show (upd s.heap x o x).clumpId = -1 ∧ ((upd s.heap x o x).members = none ∨ (upd s.heap x o x).members = some [])
      rw [upd_same]; exact ho
    · have h1 : (upd s.heap r o x).id < 0 := hneg
      rw [upd_other _ _ e] at h1
      show (upd s.heap r o x).clumpId = -1 ∧ ((upd s.heap r o x).members = none ∨ (upd s.heap r o x).members = some [])
      rw [upd_other _ _ e]
      exact hL x hx h1
  · funext j
    rw [look_drop { s with heap := upd s.heap r o } (At.nonneg h).1, look_upd hI o h]
    unfold up
    by_cases e : j = k <;> simp [e]

theorem Eff.trans {a b c : BSt} {V V' : Int → Option BObj} (h1 : Eff a b V) (h2 : Eff b c V') :
    Eff a c V' := ⟨h2.ids, h2.loose, h2.view, h2.next.trans h1.next, h2.len.trans h1.len⟩

theorem Eff.congr {a b : BSt} {V V' : Int → Option BObj} (h : Eff a b V) (e : V = V') : Eff a b V' := by
  subst e; exact h

/-- `Clump::del` of a listed member -/
theorem clumpDel_run {s : BSt} (hI : IdInv s) (hL : Loose s) {kc kb : Int} {c b : Nat} {ms : List Int}
    (hc : At s kc c) (hb : At s kb b) (hne : kb ≠ kc) (hm : (s.heap c).members = some ms) (hin : kb ∈ ms) :
    ∃ s', clumpDel c b s = .ok s' () ∧ s'.slots = s.slots ∧
      (s'.heap c) = ((s.heap c).setMembers ((ms.filter (· ≠ kb)))) ∧
      (s'.heap b) = ((s.heap b).setClump idNone) ∧
      Eff s s' (up (up (look s) kc (some ((s.heap c).setMembers ((ms.filter (· ≠ kb)))))) kb
        (some ((s.heap b).setClump idNone))) := by
  have hbc : b ≠ c := fun e => hne (by subst e; exact At.inj hI hb hc)
  have hbid := (hI kb b hb).1
  have hcid := (hI kc c hc).1
  unfold clumpDel
  have hin' : (s.heap b).id ∈ ms := by rw [hbid]; exact hin
  have hfe : ms.filter (· ≠ (s.heap b).id) = ms.filter (· ≠ kb) := by rw [hbid]
  simp only [bind_eq, membersOf_some hm, obj_eq, if_pos hin', setObj_eq, hfe]
  have p1 := put hI hL hc (o := ((s.heap c).setMembers ((ms.filter (· ≠ kb))))) hcid
  have p2 := put p1.ids p1.loose (k := kb) (r := b) hb (o := ((s.heap b).setClump idNone)) hbid
  refine ⟨_, rfl, rfl, ?_, ?_, ?_⟩
  · show upd (upd s.heap c _) b _ c = _
    rw [upd_other _ _ (Ne.symm hbc), upd_same]
  · show upd (upd s.heap c _) b _ b = _
    rw [upd_same, upd_other _ _ hbc]
  · rw [upd_other _ _ hbc]
    have := p1.trans p2
    rw [p1.view] at this
    exact this

/-- facts about a member in a consistent container -/
theorem member_facts {s : BSt} (hG : Good s) {kb : Int} {b : Nat} (hb : At s kb b)
    (hmem : (s.heap b).isClumpMember = true) :
    ∃ c ms, At s (s.heap b).clumpId c ∧ (s.heap c).members = some ms ∧ kb ∈ ms ∧
      kb ≠ (s.heap b).clumpId ∧ (s.heap c).clumpId = (s.heap b).clumpId ∧ (s.heap b).clumpId ≠ -1 ∧
      ms.Nodup := by
  have hid := (hG.ids kb b hb).1
  simp only [BObj.isClumpMember, idNone, Bool.and_eq_true, bne_iff_ne, ne_eq] at hmem
  obtain ⟨oc, ms, a, m, cc, d⟩ := hG.cons.owner kb _ (look_at hb) hmem.1
  obtain ⟨c, hc, e⟩ := look_some a
  subst e
  exact ⟨c, ms, hc, m, d (by omega), by omega, cc, hmem.1, hG.cons.nodup _ _ _ a m⟩

theorem ids_of {s : BSt} (hG : Good s) {k : Int} {r : Nat} (h : At s k r) : (s.heap r).id = k :=
  (hG.ids k r h).1

theorem Eff.good {s s' : BSt} {V : Int → Option BObj} (h : Eff s s' V) (hV : ConsV V) : Good s' :=
  ⟨h.ids, by rw [h.view]; exact hV, h.loose⟩

/-- erasing a clump that has no members -/
theorem erase_emptyClump {s : BSt} (hI : IdInv s) (hL : Loose s) (n : Nat) (flag : Bool) {k : Int} {r : Nat} (h : At s k r)
    (hc : (s.heap r).clumpId = k) (hm : (s.heap r).members = some []) :
    ∃ s', eraseF (n + 1) k flag s = .ok s' true ∧ s'.slots = s.slots.set k.toNat none ∧ s'.heap = s.heap ∧
      Eff s s' (up (look s) k none) := by
  have hid := (hI k r h).1
  have h0 := (At.nonneg h).1
  unfold eraseF
  have hs : slotAt s k = some (some r) := h
  have e1 : (s.heap r).isClumpMember = false := by simp [BObj.isClumpMember, hid, hc]
  have e2 : (s.heap r).isClump = true := by
    simp [BObj.isClump, hid, hc, idNone]; omega
  simp only [hs, bind_eq, obj_eq, e1, pure_eq, byId_at h, e2, membersOf_some hm, forEach, dropSlot_eq, if_true,
    Bool.false_eq_true, if_false]
  exact ⟨_, rfl, rfl, rfl, drop hI hL h0⟩

/-- erasing a standalone body -/
theorem erase_free {s : BSt} (hG : Good s) (n : Nat) (flag : Bool) {k : Int} {r : Nat} (h : At s k r)
    (hc : (s.heap r).clumpId = -1) :
    ∃ s', eraseF (n + 1) k flag s = .ok s' true ∧ Eff s s' (up (look s) k none) := by
  have h0 := (At.nonneg h).1
  unfold eraseF
  have hs : slotAt s k = some (some r) := h
  have e1 : (s.heap r).isClumpMember = false := by simp [BObj.isClumpMember, idNone, hc]
  have e2 : (s.heap r).isClump = false := by simp [BObj.isClump, idNone, hc]
  simp only [hs, bind_eq, obj_eq, e1, pure_eq, byId_at h, e2, setObj_eq, dropSlot_eq, Bool.false_eq_true, if_false]
  have hnm := hG.cons.noMembers (look_at h) (by rw [hc]; omega)
  exact ⟨_, rfl, remove hG.ids hG.loose h ⟨hc, hnm⟩⟩

/-- erasing a clump member -/
theorem erase_member {s : BSt} (hG : Good s) (n : Nat) (flag : Bool) {k : Int} {r c : Nat} {ms : List Int}
    (h : At s k r) (hmem : (s.heap r).isClumpMember = true) (hc : At s (s.heap r).clumpId c)
    (hm : (s.heap c).members = some ms) :
    ∃ s', eraseF (n + 2) k flag s = .ok s' true ∧
      Eff s s' (up (up (look s) (s.heap r).clumpId
        (if ms.filter (· ≠ k) = [] then none
         else some ((s.heap c).setMembers ((ms.filter (· ≠ k)))))) k none) := by
  obtain ⟨c', ms', hc', hm', hin, hne, hcc, hn1, hnd⟩ := member_facts hG h hmem
  have := At.uniq hc hc'
  subst this
  rw [hm] at hm'
  have : ms = ms' := by simpa using hm'
  subst this
  obtain ⟨s1, hrun, hsl, hh1, hh2, heff⟩ := clumpDel_run hG.ids hG.loose hc h hne hm hin
  have hs : slotAt s k = some (some r) := h
  have hcid := ids_of hG hc
  have hnm := hG.cons.noMembers (look_at h) (Ne.symm hne)
  unfold eraseF
  have h1 : At s1 k r := by unfold At slotAt; rw [hsl]; exact h
  have hc1 : At s1 (s.heap r).clumpId c := by unfold At slotAt; rw [hsl]; exact hc
  have hm1 : (s1.heap c).members = some (ms.filter (· ≠ k)) := by rw [hh1]; rfl
  by_cases hemp : ms.filter (· ≠ k) = []
  · have hc2 : (s1.heap c).clumpId = (s.heap r).clumpId := by rw [hh1]; exact hcc
    obtain ⟨s2, hrun2, hsl2, hh, heff2⟩ := erase_emptyClump heff.ids heff.loose n false hc1 hc2 (by rw [hm1, hemp])
    have hcid1 : (s1.heap c).id = (s.heap r).clumpId := by rw [hh1]; exact hcid
    have h2 : At s2 k r := by
      have := (At_drop (s := s1) (At.nonneg hc1).1 (j := k) (r := r)).mpr ⟨hne, h1⟩
      unfold At slotAt at this ⊢
      rw [hsl2]; exact this
    have hh2' : s2.heap r = ((s.heap r).setClump idNone) := by rw [hh, hh2]
    have e2 : (s2.heap r).isClump = false := by rw [hh2']; simp [BObj.isClump]
    have p := remove heff2.ids heff2.loose h2 (o := ((s2.heap r).setId (-1)))
      ⟨by rw [hh2']; rfl, by rw [hh2']; exact hnm⟩
    have ev : up (look s2) k none = up (up (look s) (s.heap r).clumpId none) k none := by
        rw [heff2.view, heff.view]
        funext j
        unfold up
        by_cases a : j = k
        · simp [a]
        · by_cases b : j = (s.heap r).clumpId <;> simp [a, b, Ne.symm hne]
    refine ⟨_, ?_, ((heff.trans heff2).trans p).congr (by rw [if_pos hemp]; exact ev)⟩
    · simp only [hs, bind_eq, obj_eq, hmem, pure_eq, byId_at hc, hrun, membersOf_some hm1, hemp, if_true,
        hcid1, hrun2, byId_at h2, e2, setObj_eq, dropSlot_eq, Bool.false_eq_true, if_false]
  · have e2 : (s1.heap r).isClump = false := by rw [hh2]; simp [BObj.isClump]
    have p := remove heff.ids heff.loose h1 (o := ((s1.heap r).setId (-1)))
      ⟨by rw [hh2]; rfl, by rw [hh2]; exact hnm⟩
    have ev : up (look s1) k none = up (up (look s) (s.heap r).clumpId
          (some ((s.heap c).setMembers ((ms.filter (· ≠ k)))))) k none := by
        rw [heff.view]
        funext j
        unfold up
        by_cases a : j = k
        · simp [a]
        · by_cases b : j = (s.heap r).clumpId <;> simp [a, b, Ne.symm hne]
    refine ⟨_, ?_, (heff.trans p).congr (by rw [if_neg hemp]; exact ev)⟩
    · simp only [hs, bind_eq, obj_eq, hmem, pure_eq, byId_at hc, hrun, membersOf_some hm1, hemp, if_true,
        byId_at h1, e2, setObj_eq, dropSlot_eq, Bool.false_eq_true, if_false]

/-- erasing a member keeps consistency -/
theorem cons_member {s : BSt} (hG : Good s) {k : Int} {r c : Nat} {ms : List Int}
    (h : At s k r) (hmem : (s.heap r).isClumpMember = true) (hc : At s (s.heap r).clumpId c)
    (hm : (s.heap c).members = some ms) :
    ConsV (up (up (look s) (s.heap r).clumpId
        (if ms.filter (· ≠ k) = [] then none
         else some ((s.heap c).setMembers ((ms.filter (· ≠ k)))))) k none) := by
  obtain ⟨c', ms', hc', hm', hin, hne, hcc, hn1, hnd⟩ := member_facts hG h hmem
  have := At.uniq hc hc'
  subst this
  rw [hm] at hm'
  have : ms = ms' := by simpa using hm'
  subst this
  have d1 := consV_detach hG.cons (look_at h) rfl hne (look_at hc) hm
  have d2 := consV_drop d1 (k := k) (o := ((s.heap r).setClump idNone)) (up_same _ _ _) (Or.inl rfl)
  by_cases hemp : ms.filter (· ≠ k) = []
  · have d3 := consV_drop d2 (k := (s.heap r).clumpId)
      (o := ((s.heap c).setMembers ((ms.filter (· ≠ k)))))
      (by rw [up_other _ _ (Ne.symm hne), up_other _ _ (Ne.symm hne), up_same])
      (Or.inr ⟨hcc, by rw [hemp]; rfl⟩)
    rw [if_pos hemp]
    refine cast (congrArg ConsV ?_) d3
    funext j
    unfold up
    by_cases a : j = k <;> by_cases b : j = (s.heap r).clumpId <;> simp [a, b, Ne.symm hne]
  · rw [if_neg hemp]
    refine cast (congrArg ConsV ?_) d2
    funext j
    unfold up
    by_cases a : j = k <;> by_cases b : j = (s.heap r).clumpId <;> simp [a, b, Ne.symm hne]

/-- erasing a clump, members freed: the loop -/
theorem freeLoop_run {s : BSt} (hI : IdInv s) (hL : Loose s) (ms : List Int)
    (hms : ∀ m ∈ ms, ∃ r, At s m r) :
    ∃ s', forEach (fun m => (do
        let r ← byId m
        let o ← obj r
        setObj r (o.setClump idNone) : M Unit)) ms s = .ok s' () ∧
      s'.slots = s.slots ∧
      Eff s s' (fun j => if j ∈ ms then (look s j).map (fun o => (o.setClump idNone)) else look s j) := by
  induction ms generalizing s with
  | nil => exact ⟨s, rfl, rfl, hI, hL, by funext j; simp, rfl, rfl⟩
  | cons m ms ih =>
    obtain ⟨r, hr⟩ := hms m (by simp)
    have p := put hI hL hr (o := ((s.heap r).setClump idNone)) (hI m r hr).1
    obtain ⟨s', hrun, hsl, heff⟩ := ih p.ids p.loose (fun m' hm' => hms m' (by simp [hm']))
    refine ⟨s', ?_, hsl, ?_⟩
    · simp only [forEach, bind_eq, byId_at hr, obj_eq, setObj_eq]
      exact hrun
    · have := p.trans heff
      refine ⟨this.ids, this.loose, ?_, this.next, this.len⟩
      rw [this.view, p.view]
      funext j
      unfold up
      by_cases a : j = m
      · subst a
        rw [look_at hr]
        by_cases b : j ∈ ms <;> simp [b, BObj.setClump]
      · by_cases b : j ∈ ms <;> simp [a, b]

theorem erase_clump_free {s : BSt} (hG : Good s) (n : Nat) {k : Int} {r : Nat} {ms : List Int}
    (h : At s k r) (hc : (s.heap r).isClump = true) (hm : (s.heap r).members = some ms) :
    ∃ s', eraseF (n + 1) k false s = .ok s' true ∧
      Eff s s' (fun j => if j = k then none
        else if j ∈ ms then (look s j).map (fun o => (o.setClump idNone)) else look s j) := by
  have hs : slotAt s k = some (some r) := h
  have hid := ids_of hG h
  have hcid : (s.heap r).clumpId = k := by
    simp only [BObj.isClump, Bool.and_eq_true, beq_iff_eq] at hc; omega
  have e1 : (s.heap r).isClumpMember = false := by simp [BObj.isClumpMember, hid, hcid]
  obtain ⟨s1, hrun, hsl, heff⟩ := freeLoop_run hG.ids hG.loose ms (fun m hin => by
    obtain ⟨o, a, b⟩ := hG.cons.listed k _ ms m (look_at h) hm hin
    obtain ⟨r', hr', _⟩ := look_some a
    exact ⟨r', hr'⟩)
  have d := drop heff.ids heff.loose (At.nonneg h).1
  refine ⟨_, ?_, (heff.trans d).congr (by rw [heff.view]; rfl)⟩
  · unfold eraseF
    simp only [hs, bind_eq, obj_eq, e1, pure_eq, byId_at h, hc, membersOf_some hm, if_true,
      Bool.false_eq_true, if_false]
    have hrun' : forEach (fun m => (do
        let r ← byId m
        let o ← obj r
        setObj r (o.setClump idNone) : M Unit)) ms s = .ok s1 () := hrun
    rw [hrun']
    rfl

/-- erasing a clump together with its members: the loop.  Each round removes one member; the last one
removes the clump itself. -/
theorem eraseLoop_run (n : Nat) {s : BSt} (hG : Good s) {k : Int} {r : Nat} (ms : List Int)
    (h : At s k r) (hc : (s.heap r).isClump = true) (hm : (s.heap r).members = some ms) (hne : ms ≠ []) :
    ∃ s', forEach (fun m => (do let _ ← eraseF (n + 2) m false; pure () : M Unit)) ms s = .ok s' () ∧
      Eff s s' (fun j => if j = k ∨ j ∈ ms then none else look s j) := by
  induction ms generalizing s r with
  | nil => exact absurd rfl hne
  | cons m ms ih =>
    have hid := ids_of hG h
    have hcid : (s.heap r).clumpId = k := by
      simp only [BObj.isClump, Bool.and_eq_true, beq_iff_eq] at hc; omega
    have h0 := (At.nonneg h).1
    obtain ⟨o, a, b, hmk⟩ := hG.cons.listed k _ (m :: ms) m (look_at h) hm (by simp)
    obtain ⟨rm, hrm, e⟩ := look_some a
    subst e
    have hidm := ids_of hG hrm
    have hmem : (s.heap rm).isClumpMember = true := by
      simp [BObj.isClumpMember, idNone, hidm, b]; omega
    have hnd := hG.cons.nodup k _ _ (look_at h) hm
    have hfil : (m :: ms).filter (· ≠ m) = ms := by
      rw [List.filter_cons_of_neg (by simp)]
      apply List.filter_eq_self.mpr
      intro x hx
      have := (List.nodup_cons.mp hnd).1
      simp; intro e; subst e; exact this hx
    have hcat : At s (s.heap rm).clumpId r := by rw [b]; exact h
    obtain ⟨s1, hrun, heff⟩ := erase_member hG n false hrm hmem hcat hm
    have hcons := cons_member hG hrm hmem hcat hm
    rw [hfil, b] at heff hcons
    have hG1 := heff.good hcons
    by_cases hms : ms = []
    · subst hms
      refine ⟨s1, ?_, heff.ids, heff.loose, ?_, heff.next, heff.len⟩
      · simp only [forEach, bind_eq, hrun, pure_eq]
      · rw [heff.view]
        funext j
        unfold up
        by_cases x : j = m <;> by_cases y : j = k <;> simp [x, y]
    · rw [if_neg hms] at heff
      have hlk : look s1 k = some ((s.heap r).setMembers ms) := by
        rw [heff.view, up_other _ _ (Ne.symm hmk), up_same]
      obtain ⟨r1, hr1, e1⟩ := look_some hlk
      obtain ⟨s2, hrun2, heff2⟩ := ih hG1 hr1 (by rw [e1]; exact hc) (by rw [e1]; rfl) hms
      refine ⟨s2, ?_, ?_⟩
      · simp only [forEach, bind_eq, hrun, pure_eq]
        exact hrun2
      · have := heff.trans heff2
        refine ⟨this.ids, this.loose, ?_, this.next, this.len⟩
        rw [this.view, heff.view]
        funext j
        unfold up
        by_cases x : j = m <;> by_cases y : j = k <;> simp [x, y]

theorem erase_clump_all {s : BSt} (hG : Good s) (n : Nat) {k : Int} {r : Nat} {ms : List Int}
    (h : At s k r) (hc : (s.heap r).isClump = true) (hm : (s.heap r).members = some ms) :
    ∃ s', eraseF (n + 3) k true s = .ok s' true ∧
      Eff s s' (fun j => if j = k ∨ j ∈ ms then none else look s j) := by
  have hs : slotAt s k = some (some r) := h
  have hid := ids_of hG h
  have hcid : (s.heap r).clumpId = k := by
    simp only [BObj.isClump, Bool.and_eq_true, beq_iff_eq] at hc; omega
  have e1 : (s.heap r).isClumpMember = false := by simp [BObj.isClumpMember, hid, hcid]
  by_cases hne : ms = []
  · subst hne
    obtain ⟨s', a, _, _, b⟩ := erase_emptyClump hG.ids hG.loose (n + 2) true h hcid hm
    refine ⟨s', a, b.ids, b.loose, ?_, b.next, b.len⟩
    rw [b.view]; funext j; unfold up; simp
  · obtain ⟨s1, hrun, heff⟩ := eraseLoop_run n hG ms h hc hm hne
    have d := drop heff.ids heff.loose (At.nonneg h).1
    refine ⟨_, ?_, (heff.trans d).congr (by
      rw [heff.view]
      funext j
      unfold up
      by_cases y : j = k <;> simp [y])⟩
    · unfold eraseF
      simp only [hs, bind_eq, obj_eq, e1, pure_eq, byId_at h, hc, membersOf_some hm, if_true,
        Bool.false_eq_true, if_false]
      have hrun' : forEach (fun m => (do let _ ← eraseF (n + 2) m false; pure () : M Unit)) ms s = .ok s1 () := hrun
      rw [hrun']
      rfl

/-- erasing everything a clump has leaves a consistent container -/
theorem cons_dropAll {V} (h : ConsV V) {c : Int} {oc : BObj} {ms : List Int}
    (hc : V c = some oc) (hcc : oc.clumpId = c) (hm : oc.members = some ms) :
    ConsV (fun j => if j = c ∨ j ∈ ms then none else V j) := by
  have h1 := consV_dissolve h hc hcc hm
  -- the freed members are removed one by one
  have gen : ∀ (l : List Int) (W : Int → Option BObj), ConsV W →
      (∀ j ∈ l, W j = none ∨ ∃ o, W j = some o ∧ o.clumpId = -1) →
      ConsV (fun j => if j ∈ l then none else W j) := by
    intro l
    induction l with
    | nil => intro W hW _; simpa using hW
    | cons x l ih =>
      intro W hW hx
      have hW' : ConsV (up W x none) := by
        rcases hx x (by simp) with e | ⟨o, e, ec⟩
        · have : up W x none = W := by
            funext j; unfold up; by_cases a : j = x <;> simp [a, e]
          rw [this]; exact hW
        · exact consV_drop hW e (Or.inl ec)
      have := ih (up W x none) hW' (fun j hj => by
        by_cases a : j = x
        · subst a; left; exact up_same _ _ _
        · rw [up_other _ _ a]; exact hx j (by simp [hj]))
      refine cast (congrArg ConsV ?_) this
      funext j
      unfold up
      by_cases a : j = x <;> by_cases b : j ∈ l <;> simp [a, b]
  have h2 := gen ms _ h1 (fun j hj => by
    obtain ⟨o, a, _, d⟩ := h.listed c oc ms j hc hm hj
    right
    exact ⟨(o.setClump idNone), by simp [d, hj, a], rfl⟩)
  refine cast (congrArg ConsV ?_) h2
  funext j
  by_cases a : j = c <;> by_cases b : j ∈ ms <;> simp [a, b]

/-! ### Histories stay good -/

/-- ends normally or by an exception, in a state satisfying `P` -/
def Run.Safe {α : Type} (P : BSt → Prop) : Run α → Prop
  | .ok s _ => P s
  | .throws s => P s
  | _ => False

theorem good_newBody {s : BSt} (hG : Good s) : Good (newBody s).1 := by
  have hAt : ∀ k r, At (newBody s).1 k r ↔ At s k r := fun _ _ => Iff.rfl
  have hne : ∀ k r, At s k r → r ≠ s.next := fun k r h => by have := (hG.ids k r h).2; omega
  have hlook : look (newBody s).1 = look s := by
    funext j
    unfold look
    have : slotAt (newBody s).1 j = slotAt s j := rfl
    rw [this]
    cases hs : slotAt s j with
    | none => rfl
    | some x => cases x with
      | none => rfl
      | some x =>
        show some (upd s.heap s.next _ x) = some (s.heap x)
        rw [upd_other _ _ (hne j x hs)]
  refine ⟨?_, by rw [hlook]; exact hG.cons, ?_⟩
  · intro k r h
    have h' : At s k r := h
    obtain ⟨a, b⟩ := hG.ids k r h'
    show (upd s.heap s.next _ r).id = k ∧ r < s.next + 1
    rw [upd_other _ _ (hne k r h')]
    exact ⟨a, by omega⟩
  · intro r hr hneg
    by_cases e : r = s.next
    · subst e
      show (upd s.heap s.next _ s.next).clumpId = -1 ∧ ((upd s.heap s.next _ s.next).members = none ∨ (upd s.heap s.next _ s.next).members = some [])
      simp [idNone]
    · have h1 : (upd s.heap s.next ⟨idNone, idNone, none⟩ r).id < 0 := hneg
      rw [upd_other _ _ e] at h1
      show (upd s.heap s.next _ r).clumpId = -1 ∧ ((upd s.heap s.next _ r).members = none ∨ (upd s.heap s.next _ r).members = some [])
      rw [upd_other _ _ e]
      have : r < s.next := by
        have : r < s.next + 1 := hr
        omega
      exact hG.loose r this h1

theorem look_len {s : BSt} {k : Int} (h : (s.slots.length : Int) ≤ k) : look s k = none := by
  unfold look slotAt
  rw [if_pos (by omega), List.getElem?_eq_none (by omega)]

theorem loose_upd {s : BSt} (hL : Loose s) (r : Nat) (o : BObj) (ho : 0 ≤ o.id) (sl : List (Option Nat)) :
    Loose ⟨sl, upd s.heap r o, s.next⟩ := by
  intro x hx hneg
  by_cases e : x = r
  · subst e
    have h1 : (upd s.heap x o x).id < 0 := hneg
    rw [upd_same] at h1; omega
  · have h1 : (upd s.heap r o x).id < 0 := hneg
    rw [upd_other _ _ e] at h1
    show (upd s.heap r o x).clumpId = -1 ∧ ((upd s.heap r o x).members = none ∨ (upd s.heap r o x).members = some [])
    rw [upd_other _ _ e]
    exact hL x hx h1

theorem good_insert {s : BSt} (hG : Good s) {r : Nat} (hr : r < s.next) (hu : Unslotted s r)
    (hc : (s.heap r).clumpId = -1) (hm : (s.heap r).members = none ∨ (s.heap r).members = some []) :
    Good (insert s r).1 := by
  refine ⟨hG.ids.insert hu hr, ?_, loose_upd hG.loose r _ (by simp) _⟩
  have : look (insert s r).1 = up (look s) s.slots.length (some ((s.heap r).setId s.slots.length)) := by
    funext j
    rw [look_insert hu]; rfl
  rw [this]
  exact consV_insert hG.cons (look_len (by omega)) (by omega) hc hm

theorem good_append {s : BSt} (hG : Good s) {r : Nat} (hr : r < s.next) (h : (s.heap r).id < 0) :
    Good (insert s r).1 :=
  good_insert hG hr (unslotted_of_neg hG.ids h) (hG.loose r hr h).1 (hG.loose r hr h).2

theorem look_set {s : BSt} {k : Int} (h0 : 0 ≤ k) (hl : k < s.slots.length) {r : Nat} (hu : Unslotted s r)
    (o : BObj) (j : Int) :
    look ⟨s.slots.set k.toNat (some r), upd s.heap r o, s.next⟩ j = if j = k then some o else look s j := by
  unfold look
  rw [slotAt_set s h0 hl]
  by_cases e : j = k
  · subst e; simp
  · rw [if_neg e, if_neg e]
    cases hs : slotAt s j with
    | none => rfl
    | some x => cases x with
      | none => rfl
      | some x =>
        show some (upd s.heap r o x) = some (s.heap x)
        rw [upd_other]
        intro e; subst e; exact hu j hs

theorem IdInv.place {s : BSt} (hI : IdInv s) {k : Int} (h0 : 0 ≤ k) (hl : k < s.slots.length) {r : Nat}
    (hr : r < s.next) (hu : Unslotted s r) :
    IdInv ⟨s.slots.set k.toNat (some r), Bodies.upd s.heap r ((s.heap r).setId k), s.next⟩ := by
  intro j x hx
  unfold At at hx
  rw [slotAt_set s h0 hl] at hx
  by_cases e : j = k
  · rw [if_pos e] at hx
    have : r = x := by simpa using hx
    subst this
    refine ⟨?_, hr⟩
    show (Bodies.upd s.heap r _ r).id = j
    simp [e]
  · rw [if_neg e] at hx
    obtain ⟨a, b⟩ := hI j x hx
    refine ⟨?_, b⟩
    show (Bodies.upd s.heap r _ x).id = j
    rw [upd_other]
    · exact a
    · intro e; subst e; exact hu j hx

theorem good_insertAtId {s : BSt} (hG : Good s) {r : Nat} (hr : r < s.next) (hu : Unslotted s r)
    (hc : (s.heap r).clumpId = -1) (hm : (s.heap r).members = none ∨ (s.heap r).members = some [])
    {k : Int} (h0 : 0 ≤ k) (hl : k < s.slots.length) :
    ∃ s' i, insertAtId s r k = .ok (s', i) ∧ Good s' := by
  unfold insertAtId
  cases hs : slotAt s k with
  | none =>
    exfalso
    unfold slotAt at hs
    rw [if_pos h0] at hs
    simp at hs; omega
  | some x =>
    cases x with
    | some x => exact ⟨s, -1, rfl, hG⟩
    | none =>
      refine ⟨_, k, rfl, ?_⟩
      refine ⟨hG.ids.place h0 hl hr hu, ?_, loose_upd hG.loose r _ h0 _⟩
      have : look ⟨s.slots.set k.toNat (some r), upd s.heap r ((s.heap r).setId k), s.next⟩ =
          up (look s) k (some ((s.heap r).setId k)) := by
        funext j
        rw [look_set h0 hl hu]; rfl
      rw [this]
      refine consV_insert hG.cons ?_ h0 hc hm
      unfold look; rw [hs]

theorem good_clear {s : BSt} (hG : Good s) : Good (clear s) := by
  have hAt : ∀ k r, ¬ At (clear s) k r := by
    intro k r h
    have := At.nonneg h
    simp [clear] at this
    omega
  have hl : look (clear s) = fun _ => none := by
    funext j
    cases h : look (clear s) j with
    | none => rfl
    | some o =>
      obtain ⟨r, hr, _⟩ := look_some h
      exact absurd hr (hAt j r)
  refine ⟨fun k r h => absurd h (hAt k r), ?_, hG.loose⟩
  rw [hl]
  constructor <;> intros <;> simp_all

theorem good_erase {s : BSt} (hG : Good s) {k : Int} (h0 : 0 ≤ k) (hl : k < s.slots.length) (flag : Bool) :
    (erase k flag s).Safe Good := by
  unfold erase
  cases hs : slotAt s k with
  | none =>
    exfalso
    unfold slotAt at hs
    rw [if_pos h0] at hs
    simp at hs; omega
  | some x =>
    cases x with
    | none =>
      unfold eraseF
      rw [hs]; exact hG
    | some r =>
      have h : At s k r := hs
      have hid := ids_of hG h
      by_cases hc : (s.heap r).clumpId = -1
      · obtain ⟨s', a, b⟩ := erase_free hG 3 flag h hc
        rw [a]
        exact b.good (consV_drop hG.cons (look_at h) (Or.inl hc))
      · by_cases hm : (s.heap r).isClumpMember = true
        · obtain ⟨c, ms, hc', hms, _⟩ := member_facts hG h hm
          obtain ⟨s', a, b⟩ := erase_member hG 2 flag h hm hc' hms
          rw [a]
          exact b.good (cons_member hG h hm hc' hms)
        · have hcid : (s.heap r).clumpId = k := by
            simp [BObj.isClumpMember, idNone, hid] at hm
            have := hm hc
            omega
          have hcl : (s.heap r).isClump = true := by
            simp [BObj.isClump, idNone, hid, hcid]; omega
          obtain ⟨oc, ms, e1, e2, e3, e4⟩ := hG.cons.owner k _ (look_at h) hc
          rw [hcid, look_at h] at e1
          have : s.heap r = oc := by simpa using e1
          subst this
          cases flag with
          | false =>
            obtain ⟨s', a, b⟩ := erase_clump_free hG 3 h hcl e2
            rw [a]
            exact b.good (consV_dissolve hG.cons (look_at h) hcid e2)
          | true =>
            obtain ⟨s', a, b⟩ := erase_clump_all hG 1 h hcl e2
            rw [a]
            exact b.good (cons_dropAll hG.cons (look_at h) hcid e2)

/-- `Clump::add` of a standalone body -/
theorem clumpAdd_run {s : BSt} (hG : Good s) {kc kb : Int} {c b : Nat} {ms : List Int}
    (hc : At s kc c) (hb : At s kb b) (hne : kb ≠ kc) (hm : (s.heap c).members = some ms)
    (hob : (s.heap b).clumpId = -1) (hcc : (s.heap c).clumpId = -1 ∨ (s.heap c).clumpId = kc) :
    ∃ s', clumpAdd c b s = .ok s' () ∧ s'.slots = s.slots ∧
      Eff s s' (up (up (look s) kb (some ((s.heap b).setClump kc))) kc
        (some (((s.heap c).setMembers (ms ++ [kb])).setClump kc))) ∧ Good s' := by
  have hbc : b ≠ c := fun e => hne (by subst e; exact At.inj hG.ids hb hc)
  have hbid := ids_of hG hb
  have hcid := ids_of hG hc
  obtain ⟨hnot, hcons⟩ := consV_attach hG.cons (look_at hb) hob hne (look_at hc) hm hcc
  have hnot' : (s.heap b).id ∉ ms := by rw [hbid]; exact hnot
  have e1 : (s.heap b).isClumpMember = false := by simp [BObj.isClumpMember, idNone, hob]
  have e2 : (s.heap b).isClump = false := by simp [BObj.isClump, idNone, hob]
  have hk : addKey ms (s.heap b).id = ms ++ [kb] := by rw [addKey, if_neg hnot', hbid]
  have p1 := put hG.ids hG.loose hc (o := (s.heap c).setMembers (ms ++ [kb])) hcid
  have p2 := put p1.ids p1.loose (k := kb) (r := b) hb (o := (s.heap b).setClump kc) hbid
  have p3 := put p2.ids p2.loose (k := kc) (r := c) hc
    (o := ((s.heap c).setMembers (ms ++ [kb])).setClump kc) hcid
  have heff := ((p1.trans p2).trans p3).congr
    (V' := up (up (look s) kb (some ((s.heap b).setClump kc))) kc
        (some (((s.heap c).setMembers (ms ++ [kb])).setClump kc))) (by
    rw [p2.view, p1.view]
    funext j
    unfold up
    by_cases a : j = kc <;> by_cases b : j = kb <;> simp [a, b])
  refine ⟨_, ?_, ?_, heff, heff.good hcons⟩
  rotate_left 1
  · rfl
  unfold clumpAdd
  simp only [bind_eq, membersOf_some hm, obj_eq, if_neg hnot', e1, e2, Bool.false_eq_true, if_false, setObj_eq, hk]
  rw [upd_other _ _ hbc, hcid, upd_other _ _ (Ne.symm hbc), upd_same, BObj.setMembers_id, hcid]

/-- the clump `c` (at id `kc`) can take members -/
def Taker (s : BSt) (kc : Int) (c : Nat) : Prop :=
  At s kc c ∧ (∃ ms, (s.heap c).members = some ms) ∧ ((s.heap c).clumpId = -1 ∨ (s.heap c).clumpId = kc)

theorem At_of_slots {s s' : BSt} (h : s'.slots = s.slots) {k : Int} {r : Nat} (ha : At s k r) : At s' k r := by
  unfold At slotAt at *
  rw [h]; exact ha

theorem heap_of_look {s : BSt} {k : Int} {r : Nat} {o : BObj} (ha : At s k r) (h : look s k = some o) :
    s.heap r = o := by
  rw [look_at ha] at h; simpa using h

/-- bodies that are no clumps -/
def NoClump (s : BSt) (kc : Int) (ids : List Int) : Prop :=
  ∀ id ∈ ids, id ≠ kc ∧ ∃ r, At s id r ∧ (s.heap r).isClump = false

theorem good_detach {s : BSt} (hG : Good s) {kc : Int} {c : Nat} {ids : List Int} (hT : Taker s kc c)
    (hcc : (s.heap c).clumpId = -1) (hN : NoClump s kc ids) {id : Int} (hid : id ∈ ids) :
    ∃ s', clumpDetach id s = .ok s' () ∧ s'.slots = s.slots ∧ Good s' ∧ Taker s' kc c ∧
      (s'.heap c).clumpId = -1 ∧ NoClump s' kc ids := by
  obtain ⟨hne, b, hb, hncl⟩ := hN id hid
  unfold clumpDetach
  simp only [bind_eq, byId_at hb, obj_eq]
  by_cases hmem : (s.heap b).isClumpMember = true
  · obtain ⟨c', ms, hc', hm, hin, hne', hcc', hn1, hnd⟩ := member_facts hG hb hmem
    obtain ⟨s', hrun, hsl, hh1, hh2, heff⟩ := clumpDel_run hG.ids hG.loose hc' hb hne' hm hin
    have hcons := consV_detach hG.cons (look_at hb) rfl hne' (look_at hc') hm
    have hG' := heff.good hcons
    simp only [hmem, if_true, bind_eq, byId_at hc', hrun]
    have hkc : kc ≠ (s.heap b).clumpId := by
      intro e
      rw [← e] at hc' hcc'
      have := At.uniq hc' hT.1
      subst this
      have := (At.nonneg hT.1).1
      omega
    have hlc : look s' kc = some (s.heap c) := by
      rw [heff.view, up_other _ _ (Ne.symm hne), up_other _ _ hkc, look_at hT.1]
    have hc1 := At_of_slots hsl hT.1
    have hch := heap_of_look hc1 hlc
    refine ⟨s', rfl, hsl, hG', ⟨hc1, by rw [hch]; exact hT.2.1, by rw [hch]; exact Or.inl hcc⟩,
      by rw [hch]; exact hcc, ?_⟩
    intro i hi
    obtain ⟨a, r, hr, hx⟩ := hN i hi
    have hr1 := At_of_slots hsl hr
    refine ⟨a, r, hr1, ?_⟩
    have hl : look s' i = some (s'.heap r) := look_at hr1
    rw [heff.view] at hl
    unfold up at hl
    by_cases x : i = id
    · subst x
      have := At.uniq hr hb
      subst this
      rw [hh2]; simp [BObj.isClump, idNone]
    · by_cases y : i = (s.heap b).clumpId
      · subst y
        have := At.uniq hr hc'
        subst this
        rw [hh1]
        exact hx
      · simp only [if_neg x, if_neg y, look_at hr] at hl
        have : s.heap r = s'.heap r := by simpa using hl
        rw [← this]; exact hx
  · simp only [hmem, Bool.false_eq_true, if_false, pure_eq]
    exact ⟨s, rfl, rfl, hG, hT, hcc, hN⟩

theorem good_detachAll {kc : Int} {c : Nat} {ids : List Int} : ∀ (l : List Int) {s : BSt}, (∀ x ∈ l, x ∈ ids) →
    Good s → Taker s kc c → (s.heap c).clumpId = -1 → NoClump s kc ids →
    ∃ s', forEach clumpDetach l s = .ok s' () ∧ s'.slots = s.slots ∧ Good s' ∧ Taker s' kc c ∧ NoClump s' kc ids
  | [], s, _, hG, hT, _, hN => ⟨s, rfl, rfl, hG, hT, hN⟩
  | x :: l, s, hx, hG, hT, hcc, hN => by
    obtain ⟨s1, a, b, c1, d, e, f⟩ := good_detach hG hT hcc hN (hx x (by simp))
    obtain ⟨s2, a2, b2, c2, d2, f2⟩ := good_detachAll l (fun y hy => hx y (by simp [hy])) c1 d e f
    exact ⟨s2, by simp only [forEach, bind_eq, a]; exact a2, b2.trans b, c2, d2, f2⟩

theorem good_attach {s : BSt} (hG : Good s) {kc : Int} {c : Nat} {ids : List Int} (hT : Taker s kc c)
    (hN : NoClump s kc ids) {id : Int} (hid : id ∈ ids) :
    (∃ s', clumpAttach c id s = .ok s' () ∧ s'.slots = s.slots ∧ Good s' ∧ Taker s' kc c ∧ NoClump s' kc ids)
    ∨ clumpAttach c id s = .throws s := by
  obtain ⟨hne, b, hb, hncl⟩ := hN id hid
  obtain ⟨hc, ⟨ms, hm⟩, hcc⟩ := hT
  have hbid := ids_of hG hb
  unfold clumpAttach
  simp only [bind_eq, byId_at hb]
  by_cases hfree : (s.heap b).clumpId = -1
  · left
    obtain ⟨s', hrun, hsl, heff, hG'⟩ := clumpAdd_run hG hc hb hne hm hfree hcc
    have hc1 := At_of_slots hsl hc
    have hch : s'.heap c = ((s.heap c).setMembers (ms ++ [id])).setClump kc :=
      heap_of_look hc1 (by rw [heff.view, up_same])
    refine ⟨s', hrun, hsl, hG', ⟨hc1, ⟨ms ++ [id], by rw [hch]; rfl⟩, by rw [hch]; exact Or.inr rfl⟩, ?_⟩
    intro i hi
    obtain ⟨a, r, hr, hx⟩ := hN i hi
    have hr1 := At_of_slots hsl hr
    refine ⟨a, r, hr1, ?_⟩
    have hl : look s' i = some (s'.heap r) := look_at hr1
    rw [heff.view] at hl
    by_cases x : i = id
    · subst x
      rw [up_other _ _ a, up_same] at hl
      have : (s.heap b).setClump kc = s'.heap r := by simpa using hl
      rw [← this]
      simp [BObj.isClump, hbid, a]
    · rw [up_other _ _ a, up_other _ _ x, look_at hr] at hl
      have : s.heap r = s'.heap r := by simpa using hl
      rw [← this]; exact hx
  · right
    have hmem : (s.heap b).isClumpMember = true := by
      simp [BObj.isClump, idNone] at hncl
      simp [BObj.isClumpMember, idNone]
      exact ⟨hfree, hncl hfree⟩
    unfold clumpAdd
    simp only [bind_eq, membersOf_some hm, obj_eq, hmem, if_true]
    split <;> rfl

theorem good_attachAll {kc : Int} {c : Nat} {ids : List Int} : ∀ (l : List Int) {s : BSt}, (∀ x ∈ l, x ∈ ids) →
    Good s → Taker s kc c → NoClump s kc ids →
    (∃ s', forEach (clumpAttach c) l s = .ok s' () ∧ Good s' ∧ Taker s' kc c) ∨
    (∃ s', forEach (clumpAttach c) l s = .throws s' ∧ Good s')
  | [], s, _, hG, hT, hN => Or.inl ⟨s, rfl, hG, hT⟩
  | x :: l, s, hx, hG, hT, hN => by
    rcases good_attach hG hT hN (hx x (by simp)) with ⟨s1, a, b, c1, d, f⟩ | a
    · rcases good_attachAll l (fun y hy => hx y (by simp [hy])) c1 d f with ⟨s2, a2, c2, d2⟩ | ⟨s2, a2, c2⟩
      · exact Or.inl ⟨s2, by simp only [forEach, bind_eq, a]; exact a2, c2, d2⟩
      · exact Or.inr ⟨s2, by simp only [forEach, bind_eq, a]; exact a2, c2⟩
    · exact Or.inr ⟨s, by simp only [forEach, bind_eq, a], hG⟩

theorem good_newClump {s : BSt} (hG : Good s) :
    Good ({ s with heap := upd s.heap s.next ⟨idNone, idNone, some []⟩, next := s.next + 1 } : BSt) := by
  have hne : ∀ k r, At s k r → r ≠ s.next := fun k r h => by have := (hG.ids k r h).2; omega
  have hlook : look ({ s with heap := upd s.heap s.next ⟨idNone, idNone, some []⟩, next := s.next + 1 } : BSt) = look s := by
    funext j
    unfold look
    have : slotAt ({ s with heap := upd s.heap s.next ⟨idNone, idNone, some []⟩, next := s.next + 1 } : BSt) j = slotAt s j := rfl
    rw [this]
    cases hs : slotAt s j with
    | none => rfl
    | some x => cases x with
      | none => rfl
      | some x =>
        show some (upd s.heap s.next _ x) = some (s.heap x)
        rw [upd_other _ _ (hne j x hs)]
  refine ⟨?_, by rw [hlook]; exact hG.cons, ?_⟩
  · intro k r h
    have h' : At s k r := h
    obtain ⟨a, b⟩ := hG.ids k r h'
    show (upd s.heap s.next _ r).id = k ∧ r < s.next + 1
    rw [upd_other _ _ (hne k r h')]
    exact ⟨a, by omega⟩
  · intro r hr hneg
    by_cases e : r = s.next
    · subst e
      show (upd s.heap s.next _ s.next).clumpId = -1 ∧ ((upd s.heap s.next _ s.next).members = none ∨ (upd s.heap s.next _ s.next).members = some [])
      simp [idNone]
    · have h1 : (upd s.heap s.next ⟨idNone, idNone, some []⟩ r).id < 0 := hneg
      rw [upd_other _ _ e] at h1
      show (upd s.heap s.next _ r).clumpId = -1 ∧ ((upd s.heap s.next _ r).members = none ∨ (upd s.heap s.next _ r).members = some [])
      rw [upd_other _ _ e]
      have : r < s.next := by
        have : r < s.next + 1 := hr
        omega
      exact hG.loose r this h1

/-- `clump(ids)` for existing bodies that are no clumps -/
theorem good_clump {s : BSt} (hG : Good s) {ids : List Int}
    (hids : ∀ id ∈ ids, ∃ r, At s id r ∧ (s.heap r).isClump = false) : (clump ids s).Safe Good := by
  unfold clump
  simp only [bind_eq, newClumpBody, insertM_eq]
  have hG0 := good_newClump hG
  generalize hs0 : ({ s with heap := upd s.heap s.next ⟨idNone, idNone, some []⟩, next := s.next + 1 } : BSt) = s0 at hG0
  have hh : s0.heap s.next = ⟨idNone, idNone, some []⟩ := by subst hs0; simp
  have hG1 := good_append hG0 (r := s.next) (by subst hs0; simp) (by rw [hh]; simp [idNone])
  have hu : Unslotted s0 s.next := unslotted_of_neg hG0.ids (by rw [hh]; simp [idNone])
  have hAt1 : At (insert s0 s.next).1 (s0.slots.length : Int) s.next := (At_insert _ _ _ _).mpr (Or.inl ⟨rfl, rfl⟩)
  have hh1 : (insert s0 s.next).1.heap s.next = ⟨s0.slots.length, idNone, some []⟩ := by
    show upd s0.heap s.next _ s.next = _
    rw [upd_same, hh]; rfl
  have hT : Taker (insert s0 s.next).1 (s0.slots.length : Int) s.next :=
    ⟨hAt1, ⟨[], by rw [hh1]⟩, by rw [hh1]; exact Or.inl rfl⟩
  have hN : NoClump (insert s0 s.next).1 (s0.slots.length : Int) ids := by
    intro id hid
    obtain ⟨r, hr, hx⟩ := hids id hid
    have hr0 : At s0 id r := by subst hs0; exact hr
    have hlt := At.nonneg hr0
    refine ⟨by omega, r, (At_insert _ _ _ _).mpr (Or.inr hr0), ?_⟩
    have hne : r ≠ s.next := by intro e; subst e; exact hu id hr0
    show (upd s0.heap s.next _ r).isClump = false
    rw [upd_other _ _ hne]
    subst hs0
    show (upd s.heap s.next _ r).isClump = false
    rw [upd_other _ _ hne]
    exact hx
  obtain ⟨s2, a2, _, g2, t2, n2⟩ := good_detachAll ids (fun _ h => h) hG1 hT (by rw [hh1]; rfl) hN
  simp only [a2]
  rcases good_attachAll ids (fun _ h => h) g2 t2 n2 with ⟨s3, a3, g3, t3⟩ | ⟨s3, a3, g3⟩
  · obtain ⟨_, ⟨ms, hm⟩, _⟩ := t3
    simp only [a3, updateProps, bind_eq, membersOf_some hm]
    by_cases e : ms = []
    · simp only [if_pos e, raise_eq]; exact g3
    · simp only [if_neg e, pure_eq]; exact g3
  · simp only [a3]; exact g3

/-- bodies that are standalone or already in clump `kc` -/
def Addable (s : BSt) (kc : Int) (ids : List Int) : Prop :=
  ∀ id ∈ ids, id ≠ kc ∧ ∃ r, At s id r ∧ ((s.heap r).clumpId = -1 ∨ (s.heap r).clumpId = kc)

theorem good_addLoop {kc : Int} {c : Nat} : ∀ (l : List Int) {s : BSt},
    Good s → Taker s kc c → Addable s kc l →
    ∃ s' e, addToClumpLoop c l [] s = .ok s' e ∧ Good s' ∧ Taker s' kc c ∧ (e = none ∨ e = some [])
  | [], s, hG, hT, hA => ⟨s, some [], rfl, hG, hT, Or.inr rfl⟩
  | x :: l, s, hG, hT, hA => by
    obtain ⟨hne, b, hb, hbc⟩ := hA x (by simp)
    obtain ⟨hc, ⟨ms, hm⟩, hcc⟩ := hT
    have hbid := ids_of hG hb
    have h0 := (At.nonneg hc).1
    unfold addToClumpLoop
    rcases hbc with hfree | hmem
    · obtain ⟨s', hrun, hsl, heff, hG'⟩ := clumpAdd_run hG hc hb hne hm hfree hcc
      have hc1 := At_of_slots hsl hc
      have hch : s'.heap c = ((s.heap c).setMembers (ms ++ [x])).setClump kc :=
        heap_of_look hc1 (by rw [heff.view, up_same])
      have e1 : (s.heap b).isClump = false := by simp [BObj.isClump, idNone, hfree]
      have e2 : (s.heap b).isClumpMember = false := by simp [BObj.isClumpMember, idNone, hfree]
      have one : addToClumpOne c x s = .ok s' (some []) := by
        unfold addToClumpOne
        simp only [bind_eq, byId_at hb, obj_eq, e1, e2, Bool.false_eq_true, if_false, hrun, pure_eq]
      have hA' : Addable s' kc l := by
        intro i hi
        obtain ⟨a, r, hr, hx⟩ := hA i (by simp [hi])
        have hr1 := At_of_slots hsl hr
        refine ⟨a, r, hr1, ?_⟩
        have hl : look s' i = some (s'.heap r) := look_at hr1
        rw [heff.view] at hl
        by_cases y : i = x
        · subst y
          rw [up_other _ _ a, up_same] at hl
          have : (s.heap b).setClump kc = s'.heap r := by simpa using hl
          rw [← this]; exact Or.inr rfl
        · rw [up_other _ _ a, up_other _ _ y, look_at hr] at hl
          have : s.heap r = s'.heap r := by simpa using hl
          rw [← this]; exact hx
      obtain ⟨s2, e, r2, g2, t2, h2⟩ := good_addLoop l hG'
        ⟨hc1, ⟨ms ++ [x], by rw [hch]; rfl⟩, by rw [hch]; exact Or.inr rfl⟩ hA'
      refine ⟨s2, e, ?_, g2, t2, h2⟩
      simp only [bind_eq, one]
      exact r2
    · have e1 : (s.heap b).isClump = false := by simp [BObj.isClump, hbid, hmem, hne]
      have e2 : (s.heap b).isClumpMember = true := by
        simp [BObj.isClumpMember, idNone, hmem, hbid, hne]; omega
      have hc' : At s (s.heap b).clumpId c := by rw [hmem]; exact hc
      have one : addToClumpOne c x s = .ok s none := by
        unfold addToClumpOne
        simp only [bind_eq, byId_at hb, obj_eq, e1, e2, Bool.false_eq_true, if_false, if_true, byId_at hc', pure_eq]
      refine ⟨s, none, ?_, hG, ⟨hc, ⟨ms, hm⟩, hcc⟩, Or.inl rfl⟩
      simp only [bind_eq, one, pure_eq]

/-- `addToClump` of standalone bodies -/
theorem good_addToClump {s : BSt} (hG : Good s) {bids : List Int} {cid : Int} {c : Nat} (hc : At s cid c)
    (hb : ∀ id ∈ bids, ∃ r, At s id r ∧ (s.heap r).clumpId = -1) : (addToClump bids cid s).Safe Good := by
  unfold addToClump
  simp only [bind_eq, byId_at hc, obj_eq]
  have hid := ids_of hG hc
  have h0 := (At.nonneg hc).1
  by_cases hcl : (s.heap c).isClump = true
  · have hcid : (s.heap c).clumpId = cid := by
      simp only [BObj.isClump, Bool.and_eq_true, beq_iff_eq] at hcl; omega
    obtain ⟨oc, ms, e1, e2, _⟩ := hG.cons.owner cid _ (look_at hc) (by omega)
    rw [hcid, look_at hc] at e1
    have : s.heap c = oc := by simpa using e1
    subst this
    have hT : Taker s cid c := ⟨hc, ⟨ms, e2⟩, Or.inr hcid⟩
    have hA : Addable s cid bids := by
      intro i hi
      obtain ⟨r, hr, hx⟩ := hb i hi
      refine ⟨?_, r, hr, Or.inl hx⟩
      intro e; subst e
      have := At.uniq hr hc
      subst this
      omega
    obtain ⟨s1, e, a, g1, ⟨_, ⟨ms1, hm1⟩, _⟩, he⟩ := good_addLoop bids hG hT hA
    simp only [hcl, Bool.not_true, Bool.false_eq_true, if_false, bind_eq, a]
    rcases he with he | he
    · subst he; exact g1
    · subst he
      simp only [bind_eq, updateProps, membersOf_some hm1]
      by_cases em : ms1 = []
      · simp only [if_pos em, raise_eq]; exact g1
      · simp only [if_neg em, pure_eq, forEach]; exact g1
  · simp only [Bool.not_eq_true] at hcl
    simp only [hcl, Bool.not_false, if_true, raise_eq]
    exact hG

/-- `releaseFromClump` on existing bodies -/
theorem good_release {s : BSt} (hG : Good s) {bid cid : Int} {b c : Nat} (hb : At s bid b) (hc : At s cid c) :
    (releaseFromClump bid cid s).Safe Good := by
  unfold releaseFromClump
  simp only [bind_eq, byId_at hb, byId_at hc, obj_eq]
  by_cases hcl : (s.heap c).isClump = true
  · simp only [hcl, Bool.not_true, Bool.false_eq_true, if_false, bind_eq, obj_eq]
    by_cases hmem : (s.heap b).isClumpMember = true
    · simp only [hmem, if_true]
      by_cases e : cid = (s.heap b).clumpId
      · rw [if_pos e]
        subst e
        obtain ⟨c', ms, hc', hm, hin, hne', hcc', hn1, hnd⟩ := member_facts hG hb hmem
        have := At.uniq hc hc'
        subst this
        simp only [bind_eq, membersOf_some hm]
        by_cases e2 : ms.length = 2
        · simp only [if_pos e2, pure_eq]; exact hG
        · obtain ⟨s', hrun, hsl, hh1, hh2, heff⟩ := clumpDel_run hG.ids hG.loose hc' hb hne' hm hin
          have hcons := consV_detach hG.cons (look_at hb) rfl hne' (look_at hc') hm
          have hG' := heff.good hcons
          simp only [if_neg e2, bind_eq, hrun, updateProps, membersOf_some (show (s'.heap c).members = some _ by rw [hh1]; rfl)]
          split
          · exact hG'
          · exact hG'
      · rw [if_neg e]; exact hG
    · simp only [Bool.not_eq_true] at hmem
      simp only [hmem, Bool.false_eq_true, if_false]
      exact hG
  · simp only [Bool.not_eq_true] at hcl
    simp only [hcl, Bool.not_false, if_true, raise_eq]
    exact hG

end Verif.Bodies
