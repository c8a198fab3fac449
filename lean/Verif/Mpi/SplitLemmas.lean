import Verif.Mpi.Split
import Mathlib.Data.List.Nodup
import Mathlib.Tactic.SplitIfs
/-!
# Lemmas on the lists made by the split
-/
namespace Verif.Mpi.Split
open Verif Verif.Collide

section lists
variable {R : Type} (S : Sc R) (p s k : Nat)

/-- what the interactions `es` of subdomain `k` add to the list for `k` -/
def added (S : Sc R) (p s : Nat) : List (Nat × Nat) → (Nat → Bool) → List Nat
  | [], _ => []
  | e :: es, ap =>
    match S.body (other s e) with
    | none => added S p s es ap
    | some b =>
      if b.flt.sub = p ∧ b.flt.isSub = false then (items (other s e) b ap).1 ++ added S p s es (items (other s e) b ap).2
      else added S p s es ap

/-- the interactions among `es` with the subdomain of the process itself -/
def touching (S : Sc R) (p s : Nat) (es : List (Nat × Nat)) : List (Nat × Nat) :=
  es.filter fun e => match S.body (other s e) with
    | none => false
    | some b => decide (b.flt.sub = p) && b.flt.isSub

@[simp] theorem upd_same (f : Nat → List Nat) (k : Nat) (l : List Nat) : upd f k l k = l := by simp [upd]
theorem upd_ne (f : Nat → List Nat) {k x : Nat} (l : List Nat) (h : x ≠ k) : upd f k l x = f x := by simp [upd, h]

theorem intrFold {S : Sc R} {p s k : Nat} (hk : k ≠ p) (es : List (Nat × Nat)) (I : Nat → List Nat) (ap : Nat → Bool) :
    (∀ q, q ≠ p → q ≠ k → (es.foldl (intrStep S p s k) (I, ap)).1 q = I q) ∧
    (es.foldl (intrStep S p s k) (I, ap)).1 k = I k ++ added S p s es ap ∧
    (es.foldl (intrStep S p s k) (I, ap)).1 p = I p ++ (touching S p s es).map (fun _ => k) := by
  induction es generalizing I ap with
  | nil => simp [added, touching]
  | cons e es ih =>
    rw [List.foldl_cons]
    cases hb : S.body (other s e) with
    | none =>
      have hst : intrStep S p s k (I, ap) e = (I, ap) := by unfold intrStep; simp only [hb]
      rw [hst]
      have ha : added S p s (e :: es) ap = added S p s es ap := by rw [added, hb]
      have ht : touching S p s (e :: es) = touching S p s es := by unfold touching; rw [List.filter_cons]; simp only [hb]; simp
      rw [ha, ht]; exact ih I ap
    | some b =>
      by_cases h1 : b.flt.sub = p
      · cases h2 : b.flt.isSub with
        | true =>
          have hst : intrStep S p s k (I, ap) e = (upd I p (I p ++ [k]), ap) := by unfold intrStep; simp [hb, hk, h1, h2]
          rw [hst]
          obtain ⟨a1, a2, a3⟩ := ih (upd I p (I p ++ [k])) ap
          refine ⟨fun q hq hq' => ?_, ?_, ?_⟩
          · rw [a1 q hq hq', upd_ne _ _ hq]
          · rw [a2, upd_ne _ _ hk]; simp [added, hb, h2]
          · rw [a3, upd_same]
            have ht : touching S p s (e :: es) = e :: touching S p s es := by unfold touching; rw [List.filter_cons]; simp [hb, h1, h2]
            rw [ht]; simp
        | false =>
          have hst : intrStep S p s k (I, ap) e = (upd I k (I k ++ (items (other s e) b ap).1), (items (other s e) b ap).2) := by
            unfold intrStep; simp [hb, hk, h1, h2]
          rw [hst]
          obtain ⟨a1, a2, a3⟩ := ih (upd I k (I k ++ (items (other s e) b ap).1)) (items (other s e) b ap).2
          refine ⟨fun q hq hq' => ?_, ?_, ?_⟩
          · rw [a1 q hq hq', upd_ne _ _ hq']
          · rw [a2, upd_same]; simp [added, hb, h1, h2]
          · rw [a3, upd_ne _ _ (Ne.symm hk)]
            have ht : touching S p s (e :: es) = touching S p s es := by unfold touching; rw [List.filter_cons]; simp [hb, h2]
            rw [ht]
      · have hst : intrStep S p s k (I, ap) e = (I, ap) := by unfold intrStep; simp [hb, hk, h1]
        rw [hst]
        have ha : added S p s (e :: es) ap = added S p s es ap := by rw [added, hb]; simp [h1]
        have ht : touching S p s (e :: es) = touching S p s es := by unfold touching; rw [List.filter_cons]; simp [hb, h1]
        rw [ha, ht]; exact ih I ap

/-- nothing is listed for the own subdomain when it meets no body of the master -/
theorem ownFold {S : Sc R} {p s : Nat} (es : List (Nat × Nat)) (h : ∀ e ∈ es, ∀ b, S.body (other s e) = some b → b.flt.sub ≠ 0)
    (I : Nat → List Nat) (ap : Nat → Bool) : (es.foldl (intrStep S p s p) (I, ap)).1 = I := by
  induction es with
  | nil => rfl
  | cons e es ih =>
    rw [List.foldl_cons]
    have : intrStep S p s p (I, ap) e = (I, ap) := by
      unfold intrStep; dsimp only
      cases hb : S.body (other s e) with
      | none => rfl
      | some b => simp only [if_true]; rw [if_neg (h e List.mem_cons_self b hb)]
    rw [this]; exact ih fun e he => h e (List.mem_cons_of_mem _ he)

/-- the list of process `p` for process `k` -/
def shared (S : Sc R) (p k : Nat) (L : List (Nat × Nat)) : List Nat := added S p (S.sd k) (withBodyAll L (S.sd k)) fun _ => false

/-- what subdomain `k` adds to the list of neighbours of `p` -/
def neigh (S : Sc R) (p k : Nat) (L : List (Nat × Nat)) : List Nat :=
  if k = p then [] else (touching S p (S.sd k) (withBodyAll L (S.sd k))).map (fun _ => k) ++ if p = 0 ∧ shared S p k L ≠ [] then [k] else []

theorem genFold {S : Sc R} {p : Nat} {L : List (Nat × Nat)} 
    (l : List Nat) (hown : p ∈ l → ∀ e ∈ withBodyAll L (S.sd p), ∀ b, S.body (other (S.sd p) e) = some b → b.flt.sub ≠ 0) (hl : l.Nodup) (h0 : 0 ∉ l) (I : Nat → List Nat) (hI : ∀ k ∈ l, k ≠ p → I k = []) (hI0 : p ≠ 0 → I 0 = []) :
    (∀ k, k ≠ p → l.foldl (sdStep S p L) I k = if k ∈ l then shared S p k L else I k) ∧
    l.foldl (sdStep S p L) I p = I p ++ l.flatMap fun k => neigh S p k L := by
  induction l generalizing I with
  | nil => simp
  | cons j l ih =>
    rw [List.foldl_cons]
    rw [List.nodup_cons] at hl
    have hj0 : j ≠ 0 := fun e => h0 (by simp [e])
    by_cases hjp : j = p
    · subst hjp
      have hst : sdStep S j L I j = I := by
        unfold sdStep; dsimp only
        rw [ownFold _ (hown List.mem_cons_self), if_pos rfl, hI0 hj0]; simp
      rw [hst]
      obtain ⟨a, b⟩ := ih (fun h => hown (List.mem_cons_of_mem _ h)) hl.2 (fun h => h0 (List.mem_cons_of_mem _ h)) I (fun k hk => hI k (List.mem_cons_of_mem _ hk)) hI0
      refine ⟨fun k hk => ?_, ?_⟩
      · rw [a k hk]; simp [hk]
      · rw [b]; simp [neigh]
    · obtain ⟨f1, f2, f3⟩ := intrFold (S := S) (s := S.sd j) hjp (withBodyAll L (S.sd j)) I (fun _ => false)
      have hIj : I j = [] := hI j List.mem_cons_self hjp
      have g2 : (List.foldl (intrStep S p (S.sd j) j) (I, fun _ => false) (withBodyAll L (S.sd j))).1 j = shared S p j L := by
        rw [f2, hIj]; rfl
      -- the state after subdomain j
      have hstep : (∀ k, k ≠ p → sdStep S p L I j k = if k = j then shared S p j L else I k) ∧ sdStep S p L I j p = I p ++ neigh S p j L := by
        unfold sdStep
        rw [if_neg hjp, g2]
        unfold neigh; rw [if_neg hjp]
        by_cases hc : p = 0 ∧ shared S p j L ≠ []
        · rw [if_pos hc, if_pos hc]
          obtain ⟨rfl, -⟩ := hc
          refine ⟨fun k hk => ?_, ?_⟩
          · rw [upd_ne _ _ hk]
            by_cases e : k = j
            · subst e; rw [g2, if_pos rfl]
            · rw [f1 k hk e, if_neg e]
          · rw [upd_same, f3, List.append_assoc]
        · rw [if_neg hc, if_neg hc]
          refine ⟨fun k hk => ?_, ?_⟩
          · by_cases e : k = j
            · subst e; rw [g2, if_pos rfl]
            · rw [f1 k hk e, if_neg e]
          · rw [f3, List.append_nil]
      obtain ⟨a, b⟩ := ih (fun h => hown (List.mem_cons_of_mem _ h)) hl.2 (fun h => h0 (List.mem_cons_of_mem _ h)) (sdStep S p L I j)
        (fun k hk hkp => by
          rw [hstep.1 k hkp, if_neg (by rintro rfl; exact hl.1 hk), hI k (List.mem_cons_of_mem _ hk) hkp])
        (fun hp => by rw [hstep.1 0 (Ne.symm hp), if_neg (Ne.symm hj0), hI0 hp])
      refine ⟨fun k hk => ?_, ?_⟩
      · rw [a k hk, hstep.1 k hk]
        by_cases e : k = j
        · subst e; simp [hl.1]
        · simp [e]
      · rw [b, hstep.2, List.flatMap_cons, List.append_assoc]

theorem mem_ranks {k : Nat} : k ∈ ranks S ↔ 1 ≤ k ∧ k < S.n := by
  unfold ranks; rw [List.mem_map]
  constructor
  · rintro ⟨i, hi, rfl⟩; rw [List.mem_range] at hi; omega
  · rintro ⟨h1, h2⟩; exact ⟨k - 1, List.mem_range.mpr (by omega), by omega⟩

theorem nodup_ranks : (ranks S).Nodup := by
  unfold ranks
  exact List.Nodup.map (fun a b h => by simpa using h) List.nodup_range

/-- the lists made by `genLocalIntersections` -/
theorem genLocal_eq {S : Sc R} {p : Nat} {L : List (Nat × Nat)}
    (hown : p ∈ ranks S → ∀ e ∈ withBodyAll L (S.sd p), ∀ b, S.body (other (S.sd p) e) = some b → b.flt.sub ≠ 0) :
    (∀ k, k ≠ p → genLocal S p L k = if 1 ≤ k ∧ k < S.n then shared S p k L else []) ∧
    genLocal S p L p = (ranks S).flatMap fun k => neigh S p k L := by
  obtain ⟨a, b⟩ := genFold (ranks S) hown (nodup_ranks S) (by rw [mem_ranks]; omega) (fun _ => []) (fun _ _ _ => rfl) (fun _ => rfl)
  refine ⟨fun k hk => ?_, ?_⟩
  · unfold genLocal; rw [a k hk]; simp only [mem_ranks]
  · unfold genLocal; rw [b, List.nil_append]

/-! ### members of the lists -/

theorem mem_masked {l : List Nat} {ap : Nat → Bool} {x : Nat} : x ∈ (masked l ap).1 ↔ x ∈ l ∧ ap x = false := by
  induction l generalizing ap with
  | nil => simp [masked]
  | cons i l ih =>
    unfold masked
    split
    · rename_i h
      rw [ih, List.mem_cons]
      constructor
      · rintro ⟨h1, h2⟩; exact ⟨Or.inr h1, h2⟩
      · rintro ⟨rfl | h1, h2⟩
        · rw [h] at h2; cases h2
        · exact ⟨h1, h2⟩
    · rename_i h
      dsimp only
      rw [List.mem_cons, ih, List.mem_cons]
      have h' : ap i = false := by simpa using h
      by_cases e : x = i
      · subst e; simp [h']
      · simp [e]

theorem masked_marks {l : List Nat} {ap : Nat → Bool} {x : Nat} : (masked l ap).2 x = true ↔ ap x = true ∨ x ∈ l := by
  induction l generalizing ap with
  | nil => simp [masked]
  | cons i l ih =>
    unfold masked
    split
    · rename_i h
      rw [ih, List.mem_cons]
      constructor
      · rintro (h1 | h1)
        · exact Or.inl h1
        · exact Or.inr (Or.inr h1)
      · rintro (h1 | rfl | h1)
        · exact Or.inl h1
        · exact Or.inl h
        · exact Or.inr h1
    · dsimp only
      rw [ih, List.mem_cons]
      by_cases e : x = i
      · subst e; simp
      · simp [e]

/-- what body `o` stands for in the lists: itself with, for facets and connections, its parts -/
def stands (o : Nat) (b : SB R) : List Nat := o :: b.parts.getD []

/-- marked bodies are among those listed -/
theorem mem_added {S : Sc R} {p s : Nat} {es : List (Nat × Nat)} {ap : Nat → Bool} {x : Nat} (hap : ap x = false) :
    x ∈ added S p s es ap ↔ ∃ e ∈ es, ∃ b, S.body (other s e) = some b ∧ b.flt.sub = p ∧ b.flt.isSub = false ∧ x ∈ stands (other s e) b := by
  induction es generalizing ap with
  | nil => simp [added]
  | cons e es ih =>
    unfold added
    cases hb : S.body (other s e) with
    | none =>
      dsimp only
      rw [ih hap]
      constructor
      · rintro ⟨e', h1, h2⟩; exact ⟨e', List.mem_cons_of_mem _ h1, h2⟩
      · rintro ⟨e', h1, b, h2, h3⟩
        rcases List.mem_cons.mp h1 with rfl | h1
        · rw [hb] at h2; cases h2
        · exact ⟨e', h1, b, h2, h3⟩
    | some b =>
      dsimp only
      split
      · rename_i h
        rw [List.mem_append]
        have hmem : x ∈ (items (other s e) b ap).1 ↔ x ∈ stands (other s e) b := by
          unfold items stands
          cases b.parts with
          | none => simp
          | some l => dsimp only; rw [mem_masked]; simp [hap]
        by_cases hx : x ∈ stands (other s e) b
        · refine ⟨fun _ => ⟨e, List.mem_cons_self, b, hb, h.1, h.2, hx⟩, fun _ => Or.inl (hmem.mpr hx)⟩
        · have hap' : (items (other s e) b ap).2 x = false := by
            unfold items; unfold stands at hx
            cases hp : b.parts with
            | none => exact hap
            | some l =>
              dsimp only
              rw [hp] at hx
              rw [← Bool.not_eq_true, masked_marks]
              rintro (h' | h')
              · rw [hap] at h'; cases h'
              · exact hx h'
          rw [ih hap', hmem]
          constructor
          · rintro (h1 | ⟨e', h1, h2⟩)
            · exact absurd h1 hx
            · exact ⟨e', List.mem_cons_of_mem _ h1, h2⟩
          · rintro ⟨e', h1, b', h2, h3, h4, h5⟩
            rcases List.mem_cons.mp h1 with rfl | h1
            · rw [hb] at h2; cases h2; exact absurd h5 hx
            · exact Or.inr ⟨e', h1, b', h2, h3, h4, h5⟩
      · rename_i h
        rw [ih hap]
        constructor
        · rintro ⟨e', h1, h2⟩; exact ⟨e', List.mem_cons_of_mem _ h1, h2⟩
        · rintro ⟨e', h1, b', h2, h3, h4, h5⟩
          rcases List.mem_cons.mp h1 with rfl | h1
          · rw [hb] at h2; cases h2; exact absurd ⟨h3, h4⟩ h
          · exact ⟨e', h1, b', h2, h3, h4, h5⟩

end lists

/-! ### interactions of a subdomain -/

section found
variable {R : Type} [Field R] [LinearOrder R] {S : Sc R} {p : Nat} {L : List (Nat × Nat)}

theorem Meet.symm {x y : Box R} (h : Meet x y) : Meet y x := fun a => ⟨(h a).2, (h a).1⟩

theorem Overlap.symm {x y : Box R} (h : Overlap x y) : Overlap y x := fun a => ⟨(h a).2, (h a).1⟩

/-- the other bodies of the interactions of a subdomain -/
theorem mem_with (h : IsIntrs S p L) {k o : Nat} (hk : 1 ≤ k) (hk' : k < S.n) :
    (∃ e ∈ withBodyAll L (S.sd k), other (S.sd k) e = o) ↔ Joined L o (S.sd k) := by
  unfold withBodyAll other Joined
  constructor
  · rintro ⟨⟨i, j⟩, h1, h2⟩
    rw [List.mem_filter] at h1
    obtain ⟨h1, h3⟩ := h1
    dsimp only at h2 h3
    split_ifs at h2 with h4
    · subst h4 h2; exact Or.inl h1
    · subst h2
      have : i = S.sd k := by simpa [h4] using h3
      subst this; exact Or.inr h1
  · intro hf
    have hne := (h.sound o k hk hk' hf).1
    rcases hf with h1 | h1
    · exact ⟨(o, S.sd k), List.mem_filter.mpr ⟨h1, by simp⟩, by simp⟩
    · exact ⟨(S.sd k, o), List.mem_filter.mpr ⟨h1, by simp⟩, by simp [hne]⟩

/-- members of the list of `p` for `k` -/
theorem mem_shared (h : IsIntrs S p L) {k x : Nat} (hk : 1 ≤ k) (hk' : k < S.n) : x ∈ shared S p k L ↔
    ∃ o b, S.body o = some b ∧ b.flt.sub = p ∧ b.flt.isSub = false ∧ Joined L o (S.sd k) ∧ x ∈ stands o b := by
  unfold shared
  rw [mem_added rfl]
  constructor
  · rintro ⟨e, h1, b, h2, h3, h4, h5⟩
    exact ⟨other (S.sd k) e, b, h2, h3, h4, (mem_with h hk hk').mp ⟨e, h1, rfl⟩, h5⟩
  · rintro ⟨o, b, h2, h3, h4, h5, h6⟩
    obtain ⟨e, h7, rfl⟩ := (mem_with h hk hk').mpr h5
    exact ⟨e, h7, b, h2, h3, h4, h6⟩

end found

end Verif.Mpi.Split
