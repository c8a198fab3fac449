import Verif.Stride.Model
import Verif.Mech.NewtonProps
/-!
# What the integrator records and what the bound dispatcher leaves
-/
namespace Verif.Stride
open Verif Verif.Mech Matrix
open Verif.Peri (Cell)

/-- the body is where its box was made, or less than the sweep length away on every axis -/
def Near (b : Bod) (bd : BoundInfo) : Prop := maxDisp b bd = 0 ∨ maxDisp b bd < bd.sweepLength

/-- the integrator moves the body: it is a body of this process, or a member of such a clump -/
def Touched (w : World) (j : Nat) : Prop := ∃ id b, w.bodies id = some b ∧ w.active b ∧ w.footprint id j

/-! ## The integrator -/

theorem bump_ge (m : ℝ) (b : Bod) : m ≤ bump m b := by
  unfold bump
  cases b.bound with
  | none => exact le_rfl
  | some bd => exact le_max_left _ _

theorem foldl_bump_ge (l : List Bod) (m : ℝ) : m ≤ l.foldl bump m := by
  induction l generalizing m with
  | nil => exact le_rfl
  | cons a l ih => exact (bump_ge m a).trans (ih _)

theorem bump_far {m : ℝ} {b : Bod} {bd : BoundInfo} (h : b.bound = some bd) (hn : ¬ Near b bd) : 2 ≤ bump m b := by
  unfold bump
  rw [h]
  dsimp only
  have : ¬ (max |(b.st.pos - bd.refPos) 0| (max |(b.st.pos - bd.refPos) 1| |(b.st.pos - bd.refPos) 2|) = 0 ∨
      max |(b.st.pos - bd.refPos) 0| (max |(b.st.pos - bd.refPos) 1| |(b.st.pos - bd.refPos) 2|) < bd.sweepLength) := hn
  rw [if_neg this]
  exact le_max_right _ _

theorem foldl_bump_far {l : List Bod} {b : Bod} (hb : b ∈ l) {bd : BoundInfo} (h : b.bound = some bd) (hn : ¬ Near b bd) (m : ℝ) :
    2 ≤ l.foldl bump m := by
  induction l generalizing m with
  | nil => cases hb
  | cons a l ih =>
    rcases List.mem_cons.mp hb with e | hb'
    · subst e; exact (bump_far (m := m) h hn).trans (foldl_bump_ge l _)
    · exact ih hb' _

theorem actPure_mv (P : Params) (D : Deform) (id : Nat) (w : World) : w.maxVelocitySq ≤ (actPure P D id w).maxVelocitySq := by
  unfold actPure
  cases w.bodies id with
  | none => exact le_rfl
  | some b =>
    by_cases h : w.active b
    · simp only [if_pos h]; exact foldl_bump_ge _ _
    · simp only [if_neg h]; exact le_rfl

theorem foldl_mv (P : Params) (D : Deform) (l : List Nat) (w : World) :
    w.maxVelocitySq ≤ (l.foldl (fun w i => actPure P D i w) w).maxVelocitySq := by
  induction l generalizing w with
  | nil => exact le_rfl
  | cons a l ih => exact (actPure_mv P D a w).trans (ih _)

theorem active_congr {w w' : World} {b b' : Bod} (hs : b'.sig = b.sig) (hd : w'.subdomain = w.subdomain) : w'.active b' ↔ w.active b := by
  unfold World.active
  have h1 : b'.kind = b.kind := sig_kind hs
  have h2 : b'.subdomain = b.subdomain := congrArg (·.2.1) hs
  have h3 : b'.isSubdomain = b.isSubdomain := congrArg (·.2.2.1) hs
  rw [h1, h2, h3, hd]

theorem footprint_congr {w w' : World} (h : SameSig w w') {id j : Nat} : w.footprint id j → w'.footprint id j := by
  rintro (e | ⟨b, hb, hm⟩)
  · exact Or.inl e
  · obtain ⟨b', hb', hs⟩ := h.some hb
    exact Or.inr ⟨b', hb', by rw [sig_kind hs]; exact hm⟩

theorem Touched.congr {w w' : World} (h : SameSig w w') (hd : w'.subdomain = w.subdomain) {j : Nat} (ht : Touched w j) : Touched w' j := by
  obtain ⟨id, b, hb, ha, hf⟩ := ht
  obtain ⟨b', hb', hs⟩ := h.some hb
  exact ⟨id, b', hb', (active_congr hs hd).mpr ha, footprint_congr h hf⟩

/-- an iteration for another body leaves the footprint of a visited body alone -/
theorem actPure_other (P : Params) (D : Deform) {w : World} (hw : ClumpsOk w) {id i j : Nat} (hi : i ≠ id) {b : Bod}
    (hb : w.bodies id = some b) (hm : ¬ b.kind.isMember) (hf : w.footprint id j) : (actPure P D i w).bodies j = w.bodies j := by
  cases hbi : w.bodies i with
  | none => unfold actPure; rw [hbi]
  | some bi =>
    by_cases ha : w.active bi
    · exact (actPure_outside P D i w (footprint_disjoint hw hi.symm hb hbi hm ha.1 hf)).1
    · unfold actPure; rw [hbi]; simp only [if_neg ha]

theorem foldl_rest (P : Params) (D : Deform) (rest : List Nat) {w : World} (hw : ClumpsOk w) {id j : Nat} (hid : id ∉ rest) {b : Bod}
    (hb : w.bodies id = some b) (hm : ¬ b.kind.isMember) (hf : w.footprint id j) :
    (rest.foldl (fun w i => actPure P D i w) w).bodies j = w.bodies j := by
  induction rest generalizing w b with
  | nil => rfl
  | cons i rest ih =>
    simp only [List.mem_cons, not_or] at hid
    rw [List.foldl_cons]
    have hs : SameSig w (actPure P D i w) := actPure_sig P D i w
    obtain ⟨b', hb', hs'⟩ := hs.some hb
    rw [ih (actPure_clumpsOk P D i hw) hid.2 hb' (by rw [sig_kind hs']; exact hm) (footprint_congr hs hf)]
    exact actPure_other P D hw (fun e => hid.1 e.symm) hb hm hf

/-- the body itself is recorded right after it was moved -/
theorem actPure_records (P : Params) (D : Deform) {w : World} (hw : ClumpsOk w) {id j : Nat} {b : Bod} (hb : w.bodies id = some b)
    (ha : w.active b) (hf : w.footprint id j) : ∃ b', (actPure P D id w).bodies j = some b' ∧
      ∀ bd, b'.bound = some bd → ¬ Near b' bd → 2 ≤ (actPure P D id w).maxVelocitySq := by
  unfold actPure
  rw [hb]
  simp only [if_pos ha]
  by_cases e : j = id
  · refine ⟨_, if_pos e, fun bd hbd hn => foldl_bump_far List.mem_cons_self hbd hn _⟩
  · rcases hf with e' | ⟨b0, hb0, hm⟩
    · exact absurd e' e
    · rw [hb] at hb0; injection hb0 with hb0; subst hb0
      obtain ⟨bk, hbk, -⟩ := members_of_clump hw hb hm
      obtain ⟨⟨j', rel⟩, hmem, ej⟩ := List.mem_map.mp hm
      dsimp only at ej; subst ej
      have hnd : (b.kind.members.map Prod.fst).Nodup := by
        cases hk : b.kind with
        | standalone => simp [Kind.members]
        | member c => simp [Kind.members]
        | clump ms => exact (hw id b ms hb hk).1
      rw [if_neg e, lookup_of_mem hnd hmem, hbk]
      refine ⟨_, rfl, fun bd hbd hn => foldl_bump_far (List.mem_cons_of_mem _ ?_) hbd hn _⟩
      unfold movedList
      rw [List.mem_filterMap]
      exact ⟨_, hmem, by rw [hbk]; rfl⟩

theorem foldl_records (P : Params) (D : Deform) {order : List Nat} (hnd : order.Nodup) {w : World} (hw : ClumpsOk w) {id j : Nat}
    (hid : id ∈ order) {b : Bod} (hb : w.bodies id = some b) (ha : w.active b) (hf : w.footprint id j) :
    ∃ b', (order.foldl (fun w i => actPure P D i w) w).bodies j = some b' ∧ ∀ bd, b'.bound = some bd → ¬ Near b' bd →
      2 ≤ (order.foldl (fun w i => actPure P D i w) w).maxVelocitySq := by
  obtain ⟨rest, hperm⟩ : ∃ rest, order.Perm (id :: rest) := ⟨_, List.perm_cons_erase hid⟩
  have hnd' := hperm.nodup hnd
  rw [foldl_perm P D hperm w hw, List.foldl_cons]
  obtain ⟨b', hb', hr⟩ := actPure_records P D hw hb ha hf
  have hs : SameSig w (actPure P D id w) := actPure_sig P D id w
  obtain ⟨b1, hb1, hs1⟩ := hs.some hb
  refine ⟨b', ?_, fun bd hbd hn => (hr bd hbd hn).trans (foldl_mv P D rest _)⟩
  rw [foldl_rest P D rest (actPure_clumpsOk P D id hw) (List.nodup_cons.mp hnd').1 hb1 (by rw [sig_kind hs1]; exact ha.1)
    (footprint_congr hs hf)]
  exact hb'

theorem foldl_sig (P : Params) (D : Deform) (l : List Nat) (w : World) : SameSig w (l.foldl (fun w i => actPure P D i w) w) ∧
    (l.foldl (fun w i => actPure P D i w) w).subdomain = w.subdomain := by
  induction l generalizing w with
  | nil => exact ⟨fun j => rfl, rfl⟩
  | cons a l ih =>
    rw [List.foldl_cons]
    obtain ⟨h1, h2⟩ := ih (actPure P D a w)
    exact ⟨fun j => (h1 j).trans (actPure_sig P D a w j), h2.trans (actPure_frame P D a w).1⟩

theorem foldl_untouched (P : Params) (D : Deform) (l : List Nat) {w : World} {j : Nat} (hj : ¬ Touched w j) :
    (l.foldl (fun w i => actPure P D i w) w).bodies j = w.bodies j := by
  induction l generalizing w with
  | nil => rfl
  | cons i l ih =>
    rw [List.foldl_cons]
    have hs : SameSig w (actPure P D i w) := actPure_sig P D i w
    have hsd := (actPure_frame P D i w).1
    rw [ih (fun ht => hj (ht.congr hs.symm hsd.symm))]
    cases hbi : w.bodies i with
    | none => unfold actPure; rw [hbi]
    | some bi =>
      by_cases ha : w.active bi
      · exact (actPure_outside P D i w (fun hf => hj ⟨i, bi, hbi, ha, hf⟩)).1
      · unfold actPure; rw [hbi]; simp only [if_neg ha]

/-- one run of the integrator: bodies keep everything but their state, a moved body that left its margin makes the recorded maximum at
least 2, a body that is not moved stays as it is -/
theorem newton_run {P : Params} {order : List Nat} {w w' : World} (hw : ClumpsOk w) (hnd : order.Nodup)
    (hall : ∀ j b, w.bodies j = some b → j ∈ order) (h : Mech.action P order w = .ok w') :
    SameSig w w' ∧ w'.subdomain = w.subdomain ∧
    (∀ j, Touched w j → ∃ b', w'.bodies j = some b' ∧ ∀ bd, b'.bound = some bd → ¬ Near b' bd → 2 ≤ w'.maxVelocitySq) ∧
    (∀ j, ¬ Touched w j → w'.bodies j = w.bodies j) := by
  rw [action_eq P order hw] at h
  injection h with h
  obtain ⟨f1, -, -, -, -, -, -, f8⟩ := beforeLoop_frame P w
  generalize beforeLoop P w = w0 at *
  have hw0 : ClumpsOk w0 := hw.of_bodies f1
  have hs0 : SameSig w w0 := fun j => by rw [f1]
  generalize hD : w0.deform = D at h
  obtain ⟨h1, h2⟩ := foldl_sig P D order w0
  have hrec : ∀ j, Touched w j → ∃ b', (order.foldl (fun w i => actPure P D i w) w0).bodies j = some b' ∧
      ∀ bd, b'.bound = some bd → ¬ Near b' bd → 2 ≤ (order.foldl (fun w i => actPure P D i w) w0).maxVelocitySq := by
    intro j ht
    obtain ⟨id, b, hb, ha, hf⟩ := ht.congr hs0 f8
    exact foldl_records P D hnd hw0 (hall id b (by rw [← f1]; exact hb)) hb ha hf
  have hun : ∀ j, ¬ Touched w j → (order.foldl (fun w i => actPure P D i w) w0).bodies j = w.bodies j := by
    intro j ht
    rw [foldl_untouched P D order (fun h => ht (h.congr hs0.symm f8.symm)), f1]
  generalize order.foldl (fun w i => actPure P D i w) w0 = w1 at *
  have a0 : (afterLoop w1).subdomain = w1.subdomain := by unfold afterLoop; split <;> rfl
  obtain ⟨a1, -, a3⟩ := afterLoop_frame w1
  subst h
  refine ⟨fun j => ?_, ?_, fun j ht => ?_, fun j ht => ?_⟩
  · rw [a1, h1 j, f1]
  · rw [a0, h2, f8]
  · rw [a1, a3]; exact hrec j ht
  · rw [a1]; exact hun j ht

end Verif.Stride
