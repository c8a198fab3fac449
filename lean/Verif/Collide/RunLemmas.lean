import Verif.Collide.ParLemmas
/-!
# Helper lemmas on the initial sweep and on a whole run of the collider
-/
namespace Verif.Collide
open Verif

set_option linter.unusedSectionVars false

variable {R : Type} [LinearOrder R]

/-! ### The initial sweep -/

theorem pos_cons (a : Bd R) (v : List (Bd R)) (k : Nat × Bool) : pos (a :: v) k = if key a = k then 0 else pos v k + 1 := by
  unfold pos
  rw [List.map_cons, List.idxOf_cons]
  by_cases h : key a = k
  · simp [h]
  · have : (key a == k) = false := by simpa using h
    rw [this, if_neg h]; rfl

theorem sweepFrom_spec {C : Cx R} {x : Bd R} {u : List (Bd R)} (hs : Safe C u) (hx : x ∈ u) (hb : x.hasBB = true) :
    ∀ (ys : List (Bd R)) (I : Ints), (∀ y ∈ ys, y ∈ u) → NK ys →
    ∃ I', sweepFrom C x I ys = .ok I' ∧ Ext C I I' ∧
      ∀ y ∈ ys, y.isMin = true → y.hasBB = true → (∀ z ∈ ys, z.id = x.id → pos ys (key y) < pos ys (key z)) →
        Wanted C x.id y.id → has I' x.id y.id = true := by
  intro ys
  induction ys with
  | nil => intro I _ _; exact ⟨I, rfl, Ext.refl C I, by simp⟩
  | cons a ys ih =>
    intro I hsub hnk
    have hnk' : NK ys := (List.nodup_cons.mp hnk).2
    by_cases h0 : a.id = x.id
    · refine ⟨I, by simp [sweepFrom, h0], Ext.refl C I, fun y hy _ _ hz _ => ?_⟩
      have := hz a (List.mem_cons_self ..) h0
      rw [pos_cons, pos_cons, if_pos rfl] at this
      omega
    · have step : ∀ I1, Ext C I I1 → ((a.isMin && a.hasBB) = true → Wanted C x.id a.id → has I1 x.id a.id = true) →
          sweepFrom C x I (a :: ys) = sweepFrom C x I1 ys → ∃ I', sweepFrom C x I (a :: ys) = .ok I' ∧ Ext C I I' ∧
          ∀ y ∈ a :: ys, y.isMin = true → y.hasBB = true → (∀ z ∈ a :: ys, z.id = x.id → pos (a :: ys) (key y) < pos (a :: ys) (key z)) →
            Wanted C x.id y.id → has I' x.id y.id = true := by
        intro I1 e1 e2 e3
        obtain ⟨I', r1, r2, r3⟩ := ih I1 (fun y hy => hsub y (List.mem_cons_of_mem _ hy)) hnk'
        refine ⟨I', by rw [e3, r1], e1.trans r2, fun y hy m1 m2 hz hw => ?_⟩
        by_cases hk : key a = key y
        · rcases List.mem_cons.mp hy with rfl | hy'
          · exact r2.mono _ _ (e2 (by simp [m1, m2]) hw)
          · exact absurd (List.mem_map.mpr ⟨y, hy', hk.symm⟩) (List.nodup_cons.mp hnk).1
        · rcases List.mem_cons.mp hy with rfl | hy'
          · exact absurd rfl hk
          · apply r3 y hy' m1 m2 _ hw
            intro z hzm hzi
            have hne : key a ≠ key z := fun h => h0 ((congrArg Prod.fst h).trans hzi)
            have h1 := hz z (List.mem_cons_of_mem _ hzm) hzi
            rw [pos_cons, pos_cons, if_neg hk, if_neg hne] at h1
            omega
      by_cases ha : (a.isMin && a.hasBB) = true
      · have hab : a.hasBB = true := by simp only [Bool.and_eq_true] at ha; exact ha.2
        obtain ⟨b, e⟩ := wanted_ok (hs x hx hb) (hs a (hsub a (List.mem_cons_self ..)) hab)
        cases b with
        | true =>
          refine step (ins I x.id a.id) (Ext.ins C I _ _ ⟨e, fun h => h0 h.symm, (hs x hx hb).2,
            (hs a (hsub a (List.mem_cons_self ..)) hab).2⟩) (fun _ _ => has_ins _ _ _) ?_
          simp only [sweepFrom, if_neg h0, ha, if_true, e]
        | false =>
          refine step I (Ext.refl C I) (fun _ h => ?_) ?_
          · unfold Wanted at h; rw [e] at h; cases h
          · simp only [sweepFrom, if_neg h0, ha, if_true, e]
      · refine step I (Ext.refl C I) (fun h => absurd h ha) ?_
        simp only [sweepFrom, if_neg h0, ha]; rfl

theorem sweep_spec {C : Cx R} {u : List (Bd R)} (hs : Safe C u) :
    ∀ (v : List (Bd R)) (I : Ints), (∀ y ∈ v, y ∈ u) → NK v →
    ∃ I', sweep C I v = .ok I' ∧ Ext C I I' ∧
      ∀ x ∈ v, ∀ y ∈ v, x.isMin = true → x.hasBB = true → y.isMin = true → y.hasBB = true →
        pos v (key x) < pos v (key y) → (∀ z ∈ v, z.id = x.id → pos v (key z) ≤ pos v (key x) ∨ pos v (key y) < pos v (key z)) →
        Wanted C x.id y.id → has I' x.id y.id = true := by
  intro v
  induction v with
  | nil => intro I _ _; exact ⟨I, rfl, Ext.refl C I, by simp⟩
  | cons a v ih =>
    intro I hsub hnk
    have hnk' : NK v := (List.nodup_cons.mp hnk).2
    have hna : ∀ z ∈ v, key a ≠ key z := fun z hz h => (List.nodup_cons.mp hnk).1 (List.mem_map.mpr ⟨z, hz, h.symm⟩)
    have hsub' : ∀ y ∈ v, y ∈ u := fun y hy => hsub y (List.mem_cons_of_mem _ hy)
    have step : ∀ I1, Ext C I I1 → sweep C I (a :: v) = sweep C I1 v →
        (a.isMin = true → a.hasBB = true → ∀ y ∈ v, y.isMin = true → y.hasBB = true →
          (∀ z ∈ v, z.id = a.id → pos v (key y) < pos v (key z)) → Wanted C a.id y.id → has I1 a.id y.id = true) →
        ∃ I', sweep C I (a :: v) = .ok I' ∧ Ext C I I' ∧
        ∀ x ∈ a :: v, ∀ y ∈ a :: v, x.isMin = true → x.hasBB = true → y.isMin = true → y.hasBB = true →
          pos (a :: v) (key x) < pos (a :: v) (key y) →
          (∀ z ∈ a :: v, z.id = x.id → pos (a :: v) (key z) ≤ pos (a :: v) (key x) ∨ pos (a :: v) (key y) < pos (a :: v) (key z)) →
          Wanted C x.id y.id → has I' x.id y.id = true := by
      intro I1 e1 e2 e3
      obtain ⟨I', r1, r2, r3⟩ := ih I1 hsub' hnk'
      refine ⟨I', by rw [e2, r1], e1.trans r2, fun x hx y hy m1 m2 m3 m4 hp hz hw => ?_⟩
      rcases List.mem_cons.mp hy with rfl | hy'
      · rw [pos_cons y, pos_cons y, if_pos rfl] at hp; omega
      · rcases List.mem_cons.mp hx with rfl | hx'
        · refine r2.mono _ _ (e3 m1 m2 y hy' m3 m4 (fun z hzm hzi => ?_) hw)
          have h1 := hz z (List.mem_cons_of_mem _ hzm) hzi
          rw [pos_cons x, pos_cons x, pos_cons x, if_pos rfl, if_neg (hna z hzm), if_neg (hna y hy')] at h1
          omega
        · rw [pos_cons a, pos_cons a, if_neg (hna x hx'), if_neg (hna y hy')] at hp
          refine r3 x hx' y hy' m1 m2 m3 m4 (by omega) (fun z hzm hzi => ?_) hw
          have h1 := hz z (List.mem_cons_of_mem _ hzm) hzi
          rw [pos_cons a, pos_cons a, pos_cons a, if_neg (hna x hx'), if_neg (hna z hzm), if_neg (hna y hy')] at h1
          omega
    by_cases ha : (a.isMin && a.hasBB) = true
    · have ha' : a.isMin = true ∧ a.hasBB = true := by simpa using ha
      obtain ⟨I1, r1, r2, r3⟩ := sweepFrom_spec hs (hsub a (List.mem_cons_self ..)) ha'.2 v I hsub' hnk'
      refine step I1 r2 ?_ (fun _ _ => r3)
      simp only [sweep, ha, if_true, r1]
    · refine step I (Ext.refl C I) ?_ (fun h1 h2 => absurd (by simp [h1, h2]) ha)
      simp only [sweep, ha]; rfl

/-! ### The bounds of all bodies -/

variable [Zero R]

/-- the list has the lower and the upper bound of the ids below `n`, once each -/
def Full (n : Nat) (v : List (Bd R)) : Prop := (v.map key).Perm ((newBounds 0 n : List (Bd R)).map key)

theorem mem_newBounds (k : Nat) : ∀ (a : Nat) (q : Nat × Bool), q ∈ (newBounds a k : List (Bd R)).map key ↔ a ≤ q.1 ∧ q.1 < a + k := by
  induction k with
  | zero => intro a q; simp [newBounds]
  | succ k ih =>
    intro a q
    obtain ⟨i, b⟩ := q
    simp only [newBounds, List.map_cons, List.mem_cons, ih, key, Prod.mk.injEq]
    cases b <;> simp <;> omega

theorem nodup_newBounds (k : Nat) : ∀ a : Nat, ((newBounds a k : List (Bd R)).map key).Nodup := by
  induction k with
  | zero => intro a; simp [newBounds]
  | succ k ih =>
    intro a
    simp only [newBounds, List.map_cons, key]
    refine List.nodup_cons.mpr ⟨?_, List.nodup_cons.mpr ⟨?_, ih (a + 1)⟩⟩
    · intro h
      rcases List.mem_cons.mp h with h | h
      · simp at h
      · have := (mem_newBounds k (a + 1) _).mp h; simp at this; omega
    · intro h
      have := (mem_newBounds k (a + 1) _).mp h; simp at this; omega

theorem length_newBounds (k : Nat) : ∀ a : Nat, (newBounds a k : List (Bd R)).length = 2 * k := by
  induction k with
  | zero => intro a; rfl
  | succ k ih => intro a; simp only [newBounds, List.length_cons, ih]; omega

theorem newBounds_append (k : Nat) : ∀ a l : Nat, (newBounds a k : List (Bd R)) ++ newBounds (a + k) l = newBounds a (k + l) := by
  induction k with
  | zero => intro a l; simp [newBounds]
  | succ k ih =>
    intro a l
    have : k + 1 + l = (k + l) + 1 := by omega
    rw [this]
    simp only [newBounds, List.cons_append]
    have e : a + (k + 1) = (a + 1) + k := by omega
    rw [e, ih]

theorem pos_newBounds (k : Nat) : ∀ (a i : Nat) (b : Bool), a ≤ i → i < a + k →
    pos (newBounds a k : List (Bd R)) (i, b) = 2 * (i - a) + (if b then 0 else 1) := by
  induction k with
  | zero => intro a i b h1 h2; omega
  | succ k ih =>
    intro a i b h1 h2
    simp only [newBounds]
    rw [pos_cons, pos_cons]
    simp only [key, Prod.mk.injEq]
    by_cases h : a = i
    · subst h; cases b <;> simp
    · rw [if_neg (by rintro ⟨h', _⟩; exact h h'), if_neg (by rintro ⟨h', _⟩; exact h h'), ih (a + 1) i b (by omega) (by omega)]
      omega

theorem Full.nk {n : Nat} {v : List (Bd R)} (h : Full n v) : NK v := (List.Perm.nodup_iff h).mpr (nodup_newBounds n 0)

theorem Full.length {n : Nat} {v : List (Bd R)} (h : Full n v) : v.length = 2 * n := by
  have := List.Perm.length_eq h
  rwa [List.length_map, List.length_map, length_newBounds] at this

theorem Full.lt {n : Nat} {v : List (Bd R)} (h : Full n v) {x : Bd R} (hx : x ∈ v) : x.id < n := by
  have := (mem_newBounds (R := R) n 0 (key x)).mp ((List.Perm.mem_iff h).mp (List.mem_map_of_mem hx))
  exact Nat.zero_add n ▸ this.2

theorem Full.exists {n : Nat} {v : List (Bd R)} (h : Full n v) {i : Nat} (hi : i < n) (b : Bool) : ∃ x ∈ v, key x = (i, b) := by
  have := (List.Perm.mem_iff h).mpr ((mem_newBounds (R := R) n 0 (i, b)).mpr ⟨Nat.zero_le _, by simpa using hi⟩)
  simpa using this

theorem Full.perm {n : Nat} {v w : List (Bd R)} (h : Full n v) (hp : w.Perm v) : Full n w := (hp.map key).trans h

theorem Full.append {m n : Nat} {v : List (Bd R)} (h : Full m v) (hn : m ≤ n) : Full n (v ++ newBounds m (n - m)) := by
  unfold Full
  have e : (newBounds 0 n : List (Bd R)) = newBounds 0 m ++ newBounds m (n - m) := by
    have := newBounds_append (R := R) m 0 (n - m)
    rw [Nat.zero_add, Nat.add_sub_cancel' hn] at this
    exact this.symm
  rw [e, List.map_append, List.map_append]
  exact List.Perm.append_right _ h

theorem key_copyBd (S : Scn R) (j : Fin 3) (x : Bd R) : key (copyBd S j x) = key x := by
  unfold copyBd
  split
  · split <;> rfl
  · rfl

theorem map_key_copy (S : Scn R) (j : Fin 3) (v : List (Bd R)) : (v.map (copyBd S j)).map key = v.map key := by
  rw [List.map_map]; congr 1; funext x; exact key_copyBd S j x

theorem Full.copy {n : Nat} {v : List (Bd R)} (h : Full n v) (S : Scn R) (j : Fin 3) : Full n (v.map (copyBd S j)) := by
  unfold Full; rw [map_key_copy]; exact h

theorem pos_copy (S : Scn R) (j : Fin 3) (v : List (Bd R)) (k : Nat × Bool) : pos (v.map (copyBd S j)) k = pos v k := by
  unfold pos; rw [map_key_copy]

theorem copyBd_boxed {S : Scn R} {j : Fin 3} {x : Bd R} (h : (copyBd S j x).hasBB = true) : Boxed S x.id := by
  unfold copyBd at h
  split at h
  · rename_i b hb
    split at h
    · rename_i bb hbb; exact ⟨b, bb, hb, hbb⟩
    · cases h
  · cases h

theorem copyBd_coord {S : Scn R} (j : Fin 3) {x : Bd R} {b : CBody R} {bb} (hb : S.body x.id = some b) (hbb : b.bound = some bb) :
    (copyBd S j x).hasBB = true ∧ (copyBd S j x).coord = if x.isMin then bb.1 j else bb.2 j := by
  unfold copyBd; rw [hb]; simp [hbb]

/-! ### Copying the boxes -/

theorem copyBoxes_spec (S : Scn R) (i : Nat) : ∀ (l : List (Bd R)) (m : (Nat → Fin 3 → R) × (Nat → Fin 3 → R)),
    (∀ b bb, S.body i = some b → b.bound = some bb → ((∃ x ∈ l, key x = (i, true)) ∨ (m.1 i = bb.1 ∧ m.2 i = bb.2)) →
      (copyBoxes S l m).1 i = bb.1 ∧ (copyBoxes S l m).2 i = bb.2) ∧
    (¬ Boxed S i → (copyBoxes S l m).1 i = m.1 i ∧ (copyBoxes S l m).2 i = m.2 i) := by
  intro l
  induction l with
  | nil =>
    intro m
    refine ⟨fun b bb h1 h2 h3 => ?_, fun _ => ⟨rfl, rfl⟩⟩
    rcases h3 with ⟨x, hx, _⟩ | h3
    · cases hx
    · exact h3
  | cons x l ih =>
    intro m
    have hbox : ∀ bb, boxOf S x = some bb → x.isMin = true ∧ ∃ b, S.body x.id = some b ∧ b.bound = some bb := by
      intro bb h
      unfold boxOf at h
      split at h
      · rename_i h0
        refine ⟨h0, ?_⟩
        split at h
        · rename_i b hb; exact ⟨b, hb, h⟩
        · cases h
      · cases h
    cases hx : boxOf S x with
    | some bb0 =>
      obtain ⟨hm, b0, hb0, hbb0⟩ := hbox bb0 hx
      simp only [copyBoxes, hx]
      obtain ⟨k1, k2⟩ := ih (updM m.1 x.id bb0.1, updM m.2 x.id bb0.2)
      refine ⟨fun b bb h1 h2 h3 => ?_, fun h => ?_⟩
      · apply k1 b bb h1 h2
        by_cases hi : i = x.id
        · right
          subst hi
          rw [hb0] at h1; cases h1
          rw [hbb0] at h2; cases h2
          simp [updM]
        · rcases h3 with ⟨y, hy, hk⟩ | h3
          · rcases List.mem_cons.mp hy with rfl | hy
            · exact absurd (congrArg Prod.fst hk).symm hi
            · exact Or.inl ⟨y, hy, hk⟩
          · right; simp [updM, hi, h3]
      · obtain ⟨a, b⟩ := k2 h
        have hi : i ≠ x.id := by rintro rfl; exact h ⟨b0, bb0, hb0, hbb0⟩
        rw [a, b]; simp [updM, hi]
    | none =>
      simp only [copyBoxes, hx]
      obtain ⟨k1, k2⟩ := ih m
      refine ⟨fun b bb h1 h2 h3 => ?_, k2⟩
      apply k1 b bb h1 h2
      rcases h3 with ⟨y, hy, hk⟩ | h3
      · rcases List.mem_cons.mp hy with rfl | hy
        · exfalso
          have e1 : y.id = i := congrArg Prod.fst hk
          have e2 : y.isMin = true := congrArg Prod.snd hk
          unfold boxOf at hx
          rw [if_pos e2, e1, h1] at hx
          simp [h2] at hx
        · exact Or.inl ⟨y, hy, hk⟩
      · exact Or.inr h3

end Verif.Collide
