import Verif.Dt.Lemmas

/-!
# The loop of the time stepper over the bodies
-/
namespace Verif.Dt
open Verif.Mech
open scoped Classical

/-- Members of clumps exist and know that they are members. -/
def Clumps (bodies : List (Option Bd)) : Prop := ∀ (i : Nat) (b : Bd), bodies[i]? = some (some b) → ∀ m ∈ b.members.getD [], ∃ c : Bd, bodies[m]? = some (some c) ∧ c.clumpMember = true

/-- A body that moves by itself. -/
def Moves (bodies : List (Option Bd)) (i : Nat) (b : Bd) : Prop := bodies[i]? = some (some b) ∧ b.dynamic = true ∧ b.clumpMember = false

theorem findFromBody_ok {bodies : List (Option Bd)} {id : Nat} {b : Bd} {a : Acc} (hv : a.eng.viscEl = false) (hd : a.eng.densityScaling = false)
    (hl : a.eng.Rstiff.length = a.eng.stiff.length) (hid : id < a.eng.stiff.length) (hb : bodies.length ≤ a.eng.stiff.length)
    (hm : ∀ m ∈ b.members.getD [], m ≠ id ∧ ∃ b, bodies[m]? = some (some b)) :
    ∃ s r K R, findFromBody bodies id b a = .ok (b, ⟨{ a.eng with stiff := s, Rstiff := r }, if K = 0 then a.newDt else min (elasticDt a.eng.safety b.mass b.inertia K R) a.newDt,
        if K = 0 then a.computed else a.computed ∨ computes K R⟩) ∧
      K = a.eng.stiff.getD id 0 + ((b.members.getD []).map fun m => a.eng.stiff.getD m 0).sum ∧
      R = a.eng.Rstiff.getD id 0 + ((b.members.getD []).map fun m => a.eng.Rstiff.getD m 0).sum ∧
      s.length = a.eng.stiff.length ∧ r.length = a.eng.stiff.length ∧ (∀ j, j ≠ id → s.getD j 0 = a.eng.stiff.getD j 0 ∧ r.getD j 0 = a.eng.Rstiff.getD j 0) := by
  have hmem : ∃ s r, addOwn bodies id b a.eng = .ok { a.eng with stiff := s, Rstiff := r } ∧ s.length = a.eng.stiff.length ∧ r.length = a.eng.stiff.length ∧
      (∀ j, s.getD j 0 = a.eng.stiff.getD j 0 + if id = j then ((b.members.getD []).map fun m => a.eng.stiff.getD m 0).sum else 0) ∧
      ∀ j, r.getD j 0 = a.eng.Rstiff.getD j 0 + if id = j then ((b.members.getD []).map fun m => a.eng.Rstiff.getD m 0).sum else 0 := by
    rw [addOwn]
    cases hbm : b.members with
    | none => exact ⟨a.eng.stiff, a.eng.Rstiff, rfl, rfl, hl, by simp, by simp⟩
    | some ms =>
      rw [hbm] at hm
      exact addMembers_ok bodies id ms hv hl hid hb hm
  obtain ⟨s, r, he, hs, hr, gs, gr⟩ := hmem
  refine ⟨s, r, s.getD id 0, r.getD id 0, ?_, by rw [gs, if_pos rfl], by rw [gr, if_pos rfl], hs, hr, ?_⟩
  · have h1 : readAt s id = .ok (s.getD id 0) := readAt_ok (by rw [hs]; exact hid)
    have h2 : readAt r id = .ok (r.getD id 0) := readAt_ok (by rw [hr]; exact hid)
    rw [findFromBody, readAt_ok hid, Res.bind_ok, readAt_ok (by rw [hl]; exact hid), Res.bind_ok]
    rw [he, Res.bind_ok]
    dsimp only
    rw [h1, Res.bind_ok, h2, Res.bind_ok]
    simp only [hd, hv, Bool.false_eq_true, if_false]
    split_ifs <;> rfl
  · intro j hj
    rw [gs, gr, if_neg (fun h => hj h.symm), if_neg (fun h => hj h.symm), add_zero, add_zero]
    exact ⟨rfl, rfl⟩

/-- What the loop does from slot `id` on. -/
theorem bodyLoop_ok {bodies : List (Option Bd)} (hcl : Clumps bodies) (cs : List Contact) : ∀ (rest : List (Option Bd)) (id : Nat) (a : Acc), rest = bodies.drop id →
    a.eng.viscEl = false → a.eng.densityScaling = false → a.eng.Rstiff.length = a.eng.stiff.length → bodies.length ≤ a.eng.stiff.length →
    (∀ j, (id ≤ j ∨ ∃ c, bodies[j]? = some (some c) ∧ c.clumpMember = true) → a.eng.stiff.getD j 0 = bodyK cs j ∧ a.eng.Rstiff.getD j 0 = bodyR cs j) →
    ∃ a', bodyLoop bodies id rest a = .ok (rest, a') ∧ (∃ s r, a'.eng = { a.eng with stiff := s, Rstiff := r } ∧ s.length = a.eng.stiff.length ∧ r.length = a.eng.stiff.length) ∧
      a'.newDt ≤ a.newDt ∧
      (∀ i b, id ≤ i → Moves bodies i b → totalK cs b i ≠ 0 → a'.newDt ≤ elasticDt a.eng.safety b.mass b.inertia (totalK cs b i) (totalR cs b i)) ∧
      (a'.newDt = a.newDt ∨ ∃ i b, id ≤ i ∧ Moves bodies i b ∧ totalK cs b i ≠ 0 ∧ a'.newDt = elasticDt a.eng.safety b.mass b.inertia (totalK cs b i) (totalR cs b i)) ∧
      (a'.computed ↔ a.computed ∨ ∃ i b, id ≤ i ∧ Moves bodies i b ∧ totalK cs b i ≠ 0 ∧ computes (totalK cs b i) (totalR cs b i)) := by
  intro rest
  induction rest with
  | nil =>
    intro id a hrest hv hd hl hb hg
    have hno : ∀ i b, id ≤ i → ¬ Moves bodies i b := by
      intro i b hi ⟨h, _⟩
      have h1 := (List.getElem?_eq_some_iff.mp h).1
      have h2 : bodies.length ≤ id := List.drop_eq_nil_iff.mp hrest.symm
      omega
    refine ⟨a, rfl, ⟨a.eng.stiff, a.eng.Rstiff, rfl, rfl, hl⟩, le_rfl, fun i b hi h => absurd h (hno i b hi), Or.inl rfl, ?_⟩
    constructor
    · exact Or.inl
    · rintro (h | ⟨i, b, hi, h, _⟩)
      · exact h
      · exact absurd h (hno i b hi)
  | cons o t ih =>
    intro id a hrest hv hd hl hb hg
    have hlt : id < bodies.length := by
      by_contra h
      rw [List.drop_eq_nil_of_le (by omega)] at hrest
      simp at hrest
    have ho : bodies[id]? = some o := by
      rw [List.drop_eq_getElem_cons hlt] at hrest
      rw [List.getElem?_eq_getElem hlt, (List.cons.inj hrest).1]
    have ht : t = bodies.drop (id + 1) := by
      rw [List.drop_eq_getElem_cons hlt] at hrest
      exact (List.cons.inj hrest).2
    have skip : (∀ b, ¬ Moves bodies id b) →
        ∃ a', bodyLoop bodies (id + 1) t a = .ok (t, a') ∧ (∃ s r, a'.eng = { a.eng with stiff := s, Rstiff := r } ∧ s.length = a.eng.stiff.length ∧ r.length = a.eng.stiff.length) ∧
        a'.newDt ≤ a.newDt ∧
        (∀ i b, id ≤ i → Moves bodies i b → totalK cs b i ≠ 0 → a'.newDt ≤ elasticDt a.eng.safety b.mass b.inertia (totalK cs b i) (totalR cs b i)) ∧
        (a'.newDt = a.newDt ∨ ∃ i b, id ≤ i ∧ Moves bodies i b ∧ totalK cs b i ≠ 0 ∧ a'.newDt = elasticDt a.eng.safety b.mass b.inertia (totalK cs b i) (totalR cs b i)) ∧
        (a'.computed ↔ a.computed ∨ ∃ i b, id ≤ i ∧ Moves bodies i b ∧ totalK cs b i ≠ 0 ∧ computes (totalK cs b i) (totalR cs b i)) := by
      intro hno
      obtain ⟨a', h1, h2, h3, h4, h5, h6⟩ := ih (id + 1) a ht hv hd hl hb (fun j hj => hg j (hj.imp (fun h => by omega) (fun h => h)))
      have hne : ∀ {i : Nat} {b : Bd}, id ≤ i → Moves bodies i b → id + 1 ≤ i := by
        intro i b hi hm
        rcases Nat.eq_or_lt_of_le hi with h | h
        · exact absurd (h ▸ hm) (hno b)
        · exact h
      refine ⟨a', h1, h2, h3, fun i b hi hm => h4 i b (hne hi hm) hm, ?_, ?_⟩
      · exact h5.imp (fun h => h) fun ⟨i, b, hi, h⟩ => ⟨i, b, by omega, h⟩
      · rw [h6]
        exact or_congr Iff.rfl ⟨fun ⟨i, b, hi, h⟩ => ⟨i, b, by omega, h⟩, fun ⟨i, b, hi, h⟩ => ⟨i, b, hne hi h.1, h⟩⟩
    cases o with
    | none =>
      obtain ⟨a', h1, h2⟩ := skip (fun b h => by rw [Moves, ho] at h; simp at h)
      exact ⟨a', by rw [bodyLoop, h1]; rfl, h2⟩
    | some b =>
      by_cases hb2 : b.dynamic ∧ ¬ b.clumpMember
      · have hmv : Moves bodies id b := ⟨ho, hb2.1, by simpa using hb2.2⟩
        have hmm : ∀ m ∈ b.members.getD [], m ≠ id ∧ ∃ b, bodies[m]? = some (some b) := by
          intro m hm
          obtain ⟨c, hc, hcm⟩ := hcl id b ho m hm
          refine ⟨?_, c, hc⟩
          rintro rfl
          rw [ho] at hc
          obtain rfl : b = c := by simpa using hc
          exact hb2.2 hcm
        obtain ⟨s, r, K, R, hf, hK, hR, hs, hr, gj⟩ := findFromBody_ok hv hd hl (by omega) hb hmm
        have hKt : K = totalK cs b id := by
          rw [hK, (hg id (Or.inl le_rfl)).1]
          funext x
          rw [totalK, Pi.add_apply]
          congr 1
          rw [List.map_congr_left (fun m hm => (hg m (Or.inr (hcl id b ho m hm))).1)]
          induction b.members.getD [] with
          | nil => rfl
          | cons y z ihz => simp [ihz]
        have hRt : R = totalR cs b id := by
          rw [hR, (hg id (Or.inl le_rfl)).2]
          funext x
          rw [totalR, Pi.add_apply]
          congr 1
          rw [List.map_congr_left (fun m hm => (hg m (Or.inr (hcl id b ho m hm))).2)]
          induction b.members.getD [] with
          | nil => rfl
          | cons y z ihz => simp [ihz]
        subst hKt hRt
        obtain ⟨a', h1, ⟨s', r', h2, h2s, h2r⟩, h3, h4, h5, h6⟩ := ih (id + 1) ⟨{ a.eng with stiff := s, Rstiff := r }, if totalK cs b id = 0 then a.newDt else min (elasticDt a.eng.safety b.mass b.inertia (totalK cs b id) (totalR cs b id)) a.newDt,
            if totalK cs b id = 0 then a.computed else a.computed ∨ computes (totalK cs b id) (totalR cs b id)⟩ ht hv hd (by dsimp only; rw [hr, hs]) (by dsimp only; rw [hs]; exact hb) (by
              intro j hj
              have hne : j ≠ id := by
                rcases hj with h | ⟨c, hc, hcm⟩
                · omega
                · rintro rfl
                  rw [ho] at hc
                  obtain rfl : b = c := by simpa using hc
                  exact hb2.2 hcm
              dsimp only
              rw [(gj j hne).1, (gj j hne).2]
              exact hg j (hj.imp (fun h => by omega) (fun h => h)))
        dsimp only at h2 h2s h2r h3 h4 h5 h6
        refine ⟨a', ?_, ⟨s', r', h2, by rw [h2s, hs], by rw [h2r, hs]⟩, ?_, ?_, ?_, ?_⟩
        · rw [bodyLoop, if_pos hb2, hf, Res.bind_ok]
          dsimp only
          rw [h1]
          rfl
        · refine le_trans h3 ?_
          split_ifs
          · exact le_rfl
          · exact min_le_right _ _
        · intro i c hi hm hk
          rcases Nat.eq_or_lt_of_le hi with h | h
          · subst h
            obtain rfl : b = c := by have := hm.1; rw [ho] at this; simpa using this
            rw [if_neg hk] at h3
            exact le_trans h3 (min_le_left _ _)
          · exact h4 i c h hm hk
        · rcases h5 with h5 | ⟨i, c, hi, h⟩
          · rw [h5]
            split_ifs with hk
            · exact Or.inl rfl
            · rcases min_choice (elasticDt a.eng.safety b.mass b.inertia (totalK cs b id) (totalR cs b id)) a.newDt with h | h
              · exact Or.inr ⟨id, b, le_rfl, hmv, hk, h⟩
              · exact Or.inl h
          · exact Or.inr ⟨i, c, by omega, h⟩
        · rw [h6]
          constructor
          · rintro (h | ⟨i, c, hi, h⟩)
            · split_ifs at h with hk
              · exact Or.inl h
              · exact h.imp (fun h => h) fun h => ⟨id, b, le_rfl, hmv, hk, h⟩
            · exact Or.inr ⟨i, c, by omega, h⟩
          · rintro (h | ⟨i, c, hi, hm, hk, h⟩)
            · left; split_ifs
              · exact h
              · exact Or.inl h
            · rcases Nat.eq_or_lt_of_le hi with h' | h'
              · subst h'
                obtain rfl : b = c := by have := hm.1; rw [ho] at this; simpa using this
                left; rw [if_neg hk]; exact Or.inr h
              · exact Or.inr ⟨i, c, h', hm, hk, h⟩
      · obtain ⟨a', h1, h2⟩ := skip (by
          rintro c ⟨hc, hc1, hc2⟩
          rw [ho] at hc
          obtain rfl : b = c := by simpa using hc
          exact hb2 ⟨hc1, by simp [hc2]⟩)
        exact ⟨a', by rw [bodyLoop, if_neg hb2, h1]; rfl, h2⟩

end Verif.Dt
