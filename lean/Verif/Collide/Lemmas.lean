import Verif.Collide.Model
import Mathlib.Data.List.Nodup
/-!
# Helper lemmas on the collider: sorting, recorded inversions
-/
namespace Verif.Collide
open Verif

set_option linter.unusedSectionVars false

variable {R : Type} [LinearOrder R]

/-! ### Symmetry -/

theorem filter_comm (avoid : Nat) (sub : Int) (b1 b2 : Flt) : filter avoid sub b1 b2 = filter avoid sub b2 b1 := by
  unfold filter
  have e1 : b1.maskCompatible b2.mask = b2.maskCompatible b1.mask := by
    unfold Flt.maskCompatible; rw [Nat.and_comm]
  have e2 : (decide (b1.mask = b2.mask) && b1.maskCompatible avoid) = (decide (b2.mask = b1.mask) && b2.maskCompatible avoid) := by
    by_cases h : b1.mask = b2.mask
    · simp [h, Flt.maskCompatible]
    · simp [h, eq_comm (a := b2.mask)]
  have e3 : decide (b1.sub = b2.sub) = decide (b2.sub = b1.sub) := by simp [eq_comm]
  have e4 : decide (b1.clumpId ≠ b2.clumpId) = decide (b2.clumpId ≠ b1.clumpId) := by simp [eq_comm]
  rw [e1, e2, e3, e4, Bool.or_comm (decide (sub = b1.sub)), Bool.or_comm b1.isSub, Bool.or_comm b1.isStandalone]
  ac_rfl

theorem mayCollide_comm (avoid : Nat) (sub : Int) (b1 b2 : Option Flt) :
    mayCollide avoid sub b1 b2 = mayCollide avoid sub b2 b1 := by
  cases b1 <;> cases b2 <;> simp only [mayCollide]
  rw [filter_comm]

/-- closed overlap on every axis -/
def Touch (C : Cx R) (i j : Nat) : Prop := ∀ a : Fin 3, C.mn i a ≤ C.mx j a ∧ C.mn j a ≤ C.mx i a

theorem overlap_iff (C : Cx R) (i j : Nat) : overlap C i j = true ↔ Touch C i j := by
  unfold overlap Touch
  simp only [Bool.and_eq_true, decide_eq_true_eq, ge_iff_le]
  constructor
  · rintro ⟨⟨⟨⟨⟨a, b⟩, c⟩, d⟩, e⟩, f⟩ k
    match k with
    | 0 => exact ⟨a, b⟩
    | 1 => exact ⟨c, d⟩
    | 2 => exact ⟨e, f⟩
  · intro h
    exact ⟨⟨⟨⟨⟨(h 0).1, (h 0).2⟩, (h 1).1⟩, (h 1).2⟩, (h 2).1⟩, (h 2).2⟩

theorem overlap_comm (C : Cx R) (i j : Nat) : overlap C i j = overlap C j i := by
  rw [Bool.eq_iff_iff, overlap_iff, overlap_iff]
  unfold Touch
  constructor <;> intro h a <;> exact ⟨(h a).2, (h a).1⟩

theorem wanted_comm (C : Cx R) (i j : Nat) : wanted C i j = wanted C j i := by
  unfold wanted
  rw [overlap_comm C i j, mayCollide_comm]
  simp only [and_comm]

/-- the pair is to have an interaction -/
def Wanted (C : Cx R) (i j : Nat) : Prop := wanted C i j = .ok true

theorem Wanted.symm {C : Cx R} {i j : Nat} (h : Wanted C i j) : Wanted C j i := by unfold Wanted at *; rw [wanted_comm]; exact h

/-- the two bodies exist and pass the filter -/
def Pair (S : Scn R) (i j : Nat) : Prop :=
  ∃ b1 b2, fltOf S i = some b1 ∧ fltOf S j = some b2 ∧ filter S.avoid S.sub b1 b2 = true

theorem wanted_iff (C : Cx R) (i j : Nat) :
    Wanted C i j ↔ i < C.nmm ∧ j < C.nmm ∧ Touch C i j ∧ Pair C.S i j := by
  unfold Wanted wanted
  split
  · rename_i h
    by_cases ho : overlap C i j = true
    · rw [if_pos ho]
      rw [overlap_iff] at ho
      cases h1 : fltOf C.S i <;> cases h2 : fltOf C.S j <;> simp [mayCollide, Pair, h1, h2, h, ho]
    · rw [if_neg ho]
      have : ¬ Touch C i j := fun t => ho ((overlap_iff C i j).mpr t)
      simp [this]
  · rename_i h
    simp only [reduceCtorEq, false_iff]
    rintro ⟨a, b, _⟩; exact h ⟨a, b⟩

/-- the body exists and has a box -/
def Boxed (S : Scn R) (i : Nat) : Prop := ∃ b bb, S.body i = some b ∧ b.bound = some bb

theorem Boxed.flt {S : Scn R} {i : Nat} (h : Boxed S i) : ∃ b, fltOf S i = some b := by
  obtain ⟨b, bb, h1, _⟩ := h
  exact ⟨b.flt, by simp [fltOf, h1]⟩

/-- a pair for which an interaction is to be made -/
structure Good (C : Cx R) (i j : Nat) : Prop where
  wanted : Wanted C i j
  ne : i ≠ j
  left : Boxed C.S i
  right : Boxed C.S j

/-! ### The interaction list -/

theorem is_comm (e : Ent) (i j : Nat) : e.is i j = e.is j i := by unfold Ent.is; rw [Bool.or_comm]

theorem has_comm (I : Ints) (i j : Nat) : has I i j = has I j i := by
  unfold has; congr 1; funext e; exact is_comm e i j

theorem has_ins (I : Ints) (i j : Nat) : has (ins I i j) i j = true := by
  unfold ins
  split
  · assumption
  · simp [has, Ent.is]

/-- `I'` extends `I` by wanted potential interactions only -/
structure Ext (C : Cx R) (I I' : Ints) : Prop where
  mono : ∀ i j, has I i j = true → has I' i j = true
  sub : ∀ e ∈ I, e ∈ I'
  new : ∀ e ∈ I', e ∈ I ∨ (e.real = false ∧ Good C e.a e.b)

theorem Ext.refl (C : Cx R) (I : Ints) : Ext C I I := ⟨fun _ _ h => h, fun _ h => h, fun _ h => Or.inl h⟩

theorem Ext.trans {C : Cx R} {I I' I'' : Ints} (h : Ext C I I') (h' : Ext C I' I'') : Ext C I I'' :=
  ⟨fun i j x => h'.mono i j (h.mono i j x), fun e x => h'.sub e (h.sub e x), fun e x => by
    rcases h'.new e x with x | x
    · exact h.new e x
    · exact Or.inr x⟩

theorem Ext.ins (C : Cx R) (I : Ints) (i j : Nat) (h : Good C i j) : Ext C I (ins I i j) := by
  unfold Collide.ins
  split
  · exact Ext.refl C I
  · refine ⟨fun a b x => ?_, fun e x => List.mem_append_left _ x, fun e x => ?_⟩
    · unfold has at *; rw [List.any_append, x]; rfl
    · rcases List.mem_append.mp x with x | x
      · exact Or.inl x
      · simp at x; subst x; exact Or.inr ⟨rfl, h⟩

/-! ### Keys and positions -/

/-- which bound it is -/
def key (x : Bd R) : Nat × Bool := (x.id, x.isMin)

/-- position of a bound in a list -/
def pos (v : List (Bd R)) (k : Nat × Bool) : Nat := (v.map key).idxOf k

/-- no bound occurs twice -/
def NK (v : List (Bd R)) : Prop := (v.map key).Nodup

theorem NK.perm {v w : List (Bd R)} (h : w.Perm v) (hn : NK v) : NK w := (h.map key).nodup_iff.mpr hn

theorem pos_inj {v : List (Bd R)} {x y : Bd R} (hx : x ∈ v) (h : pos v (key x) = pos v (key y)) : key x = key y :=
  (List.idxOf_inj (List.mem_map_of_mem hx)).mp h

theorem NK.eq {v : List (Bd R)} (hn : NK v) {x y : Bd R} (hx : x ∈ v) (hy : y ∈ v) (h : key x = key y) : x = y :=
  List.inj_on_of_nodup_map hn hx hy h

/-- sorted by coordinate -/
def Sorted (v : List (Bd R)) : Prop := v.Pairwise (fun a b => a.coord ≤ b.coord)

/-- in a sorted list, earlier means not larger -/
theorem sorted_pos {v : List (Bd R)} (hs : Sorted v) (hn : NK v) {x y : Bd R} (hx : x ∈ v) (hy : y ∈ v)
    (h : pos v (key x) < pos v (key y)) : x.coord ≤ y.coord := by
  induction v with
  | nil => cases hx
  | cons a v ih =>
    have hs' := List.pairwise_cons.mp hs
    have hn' : key a ∉ v.map key ∧ NK v := List.nodup_cons.mp hn
    rcases List.mem_cons.mp hx with rfl | hx
    · rcases List.mem_cons.mp hy with rfl | hy
      · exact le_refl _
      · exact hs'.1 y hy
    · rcases List.mem_cons.mp hy with rfl | hy
      · exfalso
        simp [pos] at h
      · have nx : key a ≠ key x := fun e => hn'.1 (e ▸ List.mem_map_of_mem hx)
        have ny : key a ≠ key y := fun e => hn'.1 (e ▸ List.mem_map_of_mem hy)
        refine ih hs'.2 hn'.2 hx hy ?_
        simp only [pos, List.map_cons] at h ⊢
        rw [List.idxOf_cons_ne _ nx, List.idxOf_cons_ne _ ny] at h
        omega

theorem pos_of_lt {v : List (Bd R)} (hs : Sorted v) (hn : NK v) {x y : Bd R} (hx : x ∈ v) (hy : y ∈ v)
    (h : x.coord < y.coord) : pos v (key x) < pos v (key y) := by
  rcases Nat.lt_trichotomy (pos v (key x)) (pos v (key y)) with c | c | c
  · exact c
  · have := hn.eq hx hy (pos_inj hx c)
    rw [this] at h; exact absurd h (lt_irrefl _)
  · exact absurd (sorted_pos hs hn hy hx c) (not_le.mpr h)

/-! ### Inversions -/

/-- every relevant inversion between the two orders is recorded -/
def Handled (C : Cx R) (Rec : Nat → Nat → Prop) (v v' : List (Bd R)) : Prop :=
  ∀ x ∈ v, ∀ y ∈ v, pos v (key y) < pos v (key x) → pos v' (key x) < pos v' (key y) →
    relevant true x y = true → Wanted C x.id y.id → Rec x.id y.id

theorem Handled.refl (C : Cx R) (Rec : Nat → Nat → Prop) (v : List (Bd R)) : Handled C Rec v v := by
  intro x _ y _ h1 h2; omega

theorem Handled.mono {C : Cx R} {Rec Rec' : Nat → Nat → Prop} {v v' : List (Bd R)} (h : Handled C Rec v v')
    (hr : ∀ i j, Rec i j → Rec' i j) : Handled C Rec' v v' :=
  fun x hx y hy a b c d => hr _ _ (h x hx y hy a b c d)

theorem Handled.trans {C : Cx R} {Rec : Nat → Nat → Prop} {v w u : List (Bd R)} (hp : w.Perm v)
    (h : Handled C Rec v w) (h' : Handled C Rec w u) : Handled C Rec v u := by
  intro x hx y hy a b c d
  have hxw : x ∈ w := hp.symm.subset hx
  have hyw : y ∈ w := hp.symm.subset hy
  rcases Nat.lt_trichotomy (pos w (key x)) (pos w (key y)) with e | e | e
  · exact h x hx y hy a e c d
  · have := pos_inj hxw e
    rw [this] at a; omega
  · exact h' x hxw y hyw e b c d

theorem idx_append (l m : List (Nat × Bool)) (k : Nat × Bool) :
    (l ++ m).idxOf k = if k ∈ l then l.idxOf k else l.length + m.idxOf k := by
  rw [List.idxOf_append]; split <;> omega

/-- moving `x` before the bounds `G` -/
theorem handled_move {C : Cx R} {Rec : Nat → Nat → Prop} (A G B : List (Bd R)) (x : Bd R)
    (hn : NK (A ++ (G ++ x :: B)))
    (hr : ∀ g ∈ G, relevant true x g = true → Wanted C x.id g.id → Rec x.id g.id) :
    Handled C Rec (A ++ (G ++ x :: B)) (A ++ (x :: (G ++ B))) := by
  intro a ha b hb h1 h2 h3 h4
  unfold NK at hn
  simp only [List.map_append, List.map_cons] at hn
  simp only [pos, List.map_append, List.map_cons, idx_append] at h1 h2
  have hA : ∀ z : Bd R, key z ∈ A.map key → key z ∉ G.map key ∧ key z ≠ key x ∧ key z ∉ B.map key := by
    intro z hz
    have := (List.nodup_append.mp hn).2.2 (key z) hz
    refine ⟨fun h => this _ (List.mem_append_left _ h) rfl, fun h => this (key x) (by simp) h,
      fun h => this _ (List.mem_append_right _ (List.mem_cons_of_mem _ h)) rfl⟩
  have hG : ∀ z : Bd R, key z ∈ G.map key → key z ≠ key x ∧ key z ∉ B.map key := by
    intro z hz
    have := (List.nodup_append.mp (List.nodup_append.mp hn).2.1).2.2 (key z) hz
    exact ⟨fun h => this (key x) (by simp) h, fun h => this _ (List.mem_cons_of_mem _ h) rfl⟩
  have hx : key x ∉ B.map key := (List.nodup_cons.mp (List.nodup_append.mp (List.nodup_append.mp hn).2.1).2.1).1
  -- the later one must be `x` and the earlier one in `G`
  have key1 : key a = key x ∧ key b ∈ G.map key := by
    by_cases a1 : key a ∈ A.map key
    · rw [if_pos a1] at h1 h2
      by_cases b1 : key b ∈ A.map key
      · rw [if_pos b1] at h1 h2; omega
      · rw [if_neg b1] at h1
        have := List.idxOf_lt_length_of_mem a1; omega
    · rw [if_neg a1] at h1 h2
      by_cases b1 : key b ∈ A.map key
      · rw [if_pos b1] at h2
        have := List.idxOf_lt_length_of_mem b1; omega
      · rw [if_neg b1] at h1 h2
        by_cases ax : key a = key x
        · refine ⟨ax, ?_⟩
          refine Classical.byContradiction fun b2 => ?_
          rw [if_neg b2, ax] at h1
          have : key x ∉ G.map key := fun h => (hG x h).1 rfl
          rw [if_neg this, List.idxOf_cons_self] at h1
          omega
        · exfalso
          rw [List.idxOf_cons_ne _ (fun e => ax e.symm)] at h2
          by_cases bx : key b = key x
          · rw [bx, List.idxOf_cons_self] at h2; omega
          · rw [List.idxOf_cons_ne _ (fun e => bx e.symm)] at h2
            simp only [idx_append] at h2
            rw [List.idxOf_cons_ne _ (fun e => ax e.symm), List.idxOf_cons_ne _ (fun e => bx e.symm)] at h1
            have l1 : ∀ z : Bd R, key z ∈ G.map key → (G.map key).idxOf (key z) < (G.map key).length := fun z hz =>
              List.idxOf_lt_length_of_mem hz
            by_cases a2 : key a ∈ G.map key <;> by_cases b2 : key b ∈ G.map key <;>
              simp only [a2, b2, if_true, if_false] at h1 h2 <;>
              first
              | omega
              | (have := l1 a a2; omega)
              | (have := l1 b b2; omega)
  obtain ⟨e1, e2⟩ := key1
  obtain ⟨g, hg, hgk⟩ := List.mem_map.mp e2
  have hn' : NK (A ++ (G ++ x :: B)) := by unfold NK; simpa using hn
  have ea : a = x := hn'.eq ha (by simp) e1
  have eb : g = b := hn'.eq (by simp [hg]) hb hgk
  subst ea; subst eb
  exact hr g hg h3 h4

/-! ### Comparison -/

theorem gt_coord {a b : Bd R} (h : a.gt b = true) : b.coord ≤ a.coord := by
  unfold Bd.gt at h
  split at h
  · rename_i e; exact le_of_eq e.2.symm
  · exact le_of_lt (by simpa using h)

theorem not_gt_coord {a b : Bd R} (h : ¬ a.gt b = true) : a.coord ≤ b.coord := by
  unfold Bd.gt at h
  split at h
  · rename_i e; exact le_of_eq e.2
  · exact not_lt.mp (by simpa using h)

theorem lt_coord {a b : Bd R} (h : a.lt b = true) : a.coord ≤ b.coord := by
  unfold Bd.lt at h
  split at h
  · rename_i e; exact le_of_eq e.2
  · exact le_of_lt (by simpa using h)

theorem not_lt_coord {a b : Bd R} (h : ¬ a.lt b = true) : b.coord ≤ a.coord := by
  unfold Bd.lt at h
  split at h
  · rename_i e; exact le_of_eq e.2.symm
  · exact not_lt.mp (by simpa using h)

/-! ### Sequential sort -/

/-- bounds with a box belong to existing bodies whose box is stored -/
def Safe (C : Cx R) (v : List (Bd R)) : Prop := ∀ x ∈ v, x.hasBB = true → x.id < C.nmm ∧ Boxed C.S x.id

theorem wanted_ok {C : Cx R} {x y : Bd R} (hx : x.id < C.nmm ∧ Boxed C.S x.id)
    (hy : y.id < C.nmm ∧ Boxed C.S y.id) : ∃ b, wanted C x.id y.id = .ok b := by
  obtain ⟨x1, hx⟩ := hx
  obtain ⟨y1, hy⟩ := hy
  obtain ⟨b1, x2⟩ := hx.flt
  obtain ⟨b2, y2⟩ := hy.flt
  unfold wanted
  rw [if_pos ⟨x1, y1⟩]
  split
  · rw [x2, y2]; exact ⟨_, rfl⟩
  · exact ⟨_, rfl⟩

theorem relevant_bb {dc : Bool} {x y : Bd R} (h : relevant dc x y = true) : x.hasBB = true ∧ y.hasBB = true := by
  unfold relevant at h
  simp only [Bool.and_eq_true] at h
  exact ⟨h.1.1.2, h.1.2⟩

theorem relevant_ne {dc : Bool} {x y : Bd R} (h : relevant dc x y = true) : x.id ≠ y.id := by
  unfold relevant at h
  simp only [Bool.and_eq_true, decide_eq_true_eq] at h
  exact h.2

theorem pass_spec {C : Cx R} {dc : Bool} {I : Ints} {x y : Bd R} {v : List (Bd R)} (hs : Safe C v) (hx : x ∈ v) (hy : y ∈ v) :
    ∃ I', pass C dc I x y = .ok I' ∧ Ext C I I' ∧ (dc = false → I' = I) ∧
      (dc = true → relevant true x y = true → Wanted C x.id y.id → has I' x.id y.id = true) := by
  unfold pass
  by_cases hr : relevant dc x y = true
  · rw [if_pos hr]
    have hb := relevant_bb hr
    obtain ⟨b, e⟩ := wanted_ok (hs x hx hb.1) (hs y hy hb.2)
    have hdc : dc ≠ false := by rintro rfl; simp [relevant] at hr
    cases b with
    | true =>
      refine ⟨ins I x.id y.id, by simp [handle, e], Ext.ins C I _ _ ⟨e, relevant_ne hr, (hs x hx hb.1).2, (hs y hy hb.2).2⟩, fun h => absurd h hdc, fun _ _ _ => has_ins _ _ _⟩
    | false =>
      refine ⟨I, by simp [handle, e], Ext.refl C I, fun _ => rfl, fun _ _ h => ?_⟩
      unfold Wanted at h; rw [e] at h; cases h
  · rw [if_neg hr]
    refine ⟨I, rfl, Ext.refl C I, fun _ => rfl, fun h1 h2 => ?_⟩
    subst h1; exact absurd h2 hr

theorem insStep_spec {C : Cx R} {dc : Bool} {x : Bd R} {v : List (Bd R)} (hs : Safe C v) (hx : x ∈ v) :
    ∀ (rev : List (Bd R)) (I : Ints), (∀ y ∈ rev, y ∈ v) →
    ∃ G T I', rev = G ++ T ∧ insStep C dc x I rev = .ok (I', G ++ x :: T) ∧ (∀ g ∈ G, g.gt x = true) ∧
      (∀ t ∈ T.head?, ¬ t.gt x = true) ∧ Ext C I I' ∧ (dc = false → I' = I) ∧
      (dc = true → ∀ g ∈ G, relevant true x g = true → Wanted C x.id g.id → has I' x.id g.id = true) := by
  intro rev
  induction rev with
  | nil => intro I _; exact ⟨[], [], I, rfl, rfl, by simp, by simp, Ext.refl C I, fun _ => rfl, by simp⟩
  | cons y ys ih =>
    intro I hsub
    by_cases hg : y.gt x = true
    · obtain ⟨I1, p1, p2, p3, p4⟩ := pass_spec (dc := dc) (I := I) hs hx (hsub y (List.mem_cons_self ..))
      obtain ⟨G, T, I2, q1, q2, q3, q4, q5, q6, q7⟩ := ih I1 (fun z hz => hsub z (List.mem_cons_of_mem _ hz))
      refine ⟨y :: G, T, I2, by rw [q1]; rfl, ?_, ?_, q4, p2.trans q5, fun h => by rw [q6 h, p3 h], ?_⟩
      · simp only [insStep, hg, if_true, p1, q2, List.cons_append]
      · intro g hgm
        rcases List.mem_cons.mp hgm with rfl | h
        · exact hg
        · exact q3 g h
      · intro hd g hgm hr hw
        rcases List.mem_cons.mp hgm with rfl | h
        · exact q5.mono _ _ (p4 hd hr hw)
        · exact q7 hd g h hr hw
    · refine ⟨[], y :: ys, I, rfl, by simp [insStep, hg], by simp, ?_, Ext.refl C I, fun _ => rfl, by simp⟩
      intro t ht; simp at ht; subst ht; exact hg

/-- descending by coordinate -/
def Desc (v : List (Bd R)) : Prop := v.Pairwise (fun a b => b.coord ≤ a.coord)

theorem desc_insert {G T : List (Bd R)} {x : Bd R} (h : Desc (G ++ T)) (hG : ∀ g ∈ G, x.coord ≤ g.coord)
    (hT : ∀ t ∈ T.head?, t.coord ≤ x.coord) : Desc (G ++ x :: T) := by
  unfold Desc at *
  rw [List.pairwise_append] at h ⊢
  obtain ⟨h1, h2, h3⟩ := h
  refine ⟨h1, List.pairwise_cons.mpr ⟨?_, h2⟩, ?_⟩
  · cases T with
    | nil => intro _ h; cases h
    | cons t T =>
      have ht : t.coord ≤ x.coord := hT t rfl
      intro z hz
      rcases List.mem_cons.mp hz with rfl | hz
      · exact ht
      · exact le_trans ((List.pairwise_cons.mp h2).1 z hz) ht
  · intro g hg z hz
    rcases List.mem_cons.mp hz with rfl | hz
    · exact hG g hg
    · exact h3 g hg z hz

theorem desc_reverse {v : List (Bd R)} : Sorted v.reverse ↔ Desc v := by
  unfold Sorted Desc; rw [List.pairwise_reverse]

theorem perm_ins (G T xs : List (Bd R)) (x : Bd R) : ((G ++ x :: T).reverse ++ xs).Perm ((G ++ T).reverse ++ x :: xs) := by
  have h1 : ((G ++ x :: T).reverse ++ xs).Perm ((G ++ x :: T) ++ xs) := (List.reverse_perm _).append_right _
  have h2 : ((G ++ T).reverse ++ x :: xs).Perm ((G ++ T) ++ x :: xs) := (List.reverse_perm _).append_right _
  refine h1.trans (List.Perm.trans ?_ h2.symm)
  have a : (G ++ x :: T ++ xs).Perm (x :: (G ++ T ++ xs)) := by
    rw [List.append_assoc, List.cons_append, List.append_assoc]
    exact List.perm_middle
  have b : (G ++ T ++ x :: xs).Perm (x :: (G ++ T ++ xs)) := List.perm_middle
  exact a.trans b.symm

/-- the sorting loop; `A` and `B` are what stands before and behind -/
theorem sortLoop_spec {C : Cx R} {dc : Bool} {v : List (Bd R)} (hs : Safe C v) :
    ∀ (xs rev : List (Bd R)) (I : Ints), (∀ y ∈ rev, y ∈ v) → (∀ y ∈ xs, y ∈ v) → Desc rev → NK (rev.reverse ++ xs) →
    ∃ I' w, sortLoop C dc I rev xs = .ok (I', w) ∧ w.Perm (rev.reverse ++ xs) ∧ Sorted w ∧ Ext C I I' ∧
      (dc = false → I' = I) ∧ (dc = true → Handled C (fun i j => has I' i j = true) (rev.reverse ++ xs) w) := by
  intro xs
  induction xs with
  | nil =>
    intro rev I h1 h2 h3 h4
    refine ⟨I, rev.reverse, rfl, by simp, desc_reverse.mpr h3, Ext.refl C I, fun _ => rfl, fun _ => ?_⟩
    rw [List.append_nil]; exact Handled.refl C _ _
  | cons x xs ih =>
    intro rev I h1 h2 h3 h4
    obtain ⟨G, T, I1, e, q2, q3, q4, q5, q6, q7⟩ := insStep_spec (dc := dc) hs (h2 x (List.mem_cons_self ..)) rev I h1
    subst e
    have hd : Desc (G ++ x :: T) := desc_insert h3 (fun g hg => gt_coord (q3 g hg)) (fun t ht => not_gt_coord (q4 t ht))
    have hp := perm_ins G T xs x
    have hmem : ∀ y ∈ G ++ x :: T, y ∈ v := by
      intro y hy
      simp only [List.mem_append, List.mem_cons] at hy
      rcases hy with hy | rfl | hy
      · exact h1 y (List.mem_append_left _ hy)
      · exact h2 y (List.mem_cons_self ..)
      · exact h1 y (List.mem_append_right _ hy)
    obtain ⟨I2, w, r1, r2, r3, r4, r5, r6⟩ := ih (G ++ x :: T) I1 hmem (fun y hy => h2 y (List.mem_cons_of_mem _ hy)) hd
      (h4.perm hp)
    refine ⟨I2, w, by simp only [sortLoop, q2, r1], r2.trans hp, r3, q5.trans r4, fun h => by rw [r5 h, q6 h], fun h => ?_⟩
    have hm : Handled C (fun i j => has I2 i j = true) ((G ++ T).reverse ++ x :: xs) ((G ++ x :: T).reverse ++ xs) := by
      have := handled_move (C := C) (Rec := fun i j => has I2 i j = true) T.reverse G.reverse xs x
        (by simpa [List.reverse_append] using h4)
        (fun g hg hr hw => r4.mono _ _ (q7 h g (List.mem_reverse.mp hg) hr hw))
      simpa [List.reverse_append] using this
    exact hm.trans hp (r6 h)

theorem insertionSort_spec {C : Cx R} {dc : Bool} {v : List (Bd R)} (hs : Safe C v) (hn : NK v) (I : Ints) :
    ∃ I' w, insertionSort C dc I v = .ok (I', w) ∧ w.Perm v ∧ Sorted w ∧ Ext C I I' ∧
      (dc = false → I' = I) ∧ (dc = true → Handled C (fun i j => has I' i j = true) v w) := by
  have := sortLoop_spec (dc := dc) hs v [] I (by simp) (fun y hy => hy) List.Pairwise.nil (by simpa using hn)
  simpa [insertionSort] using this

end Verif.Collide
