import Verif.Plot.Model
import Mathlib.Data.List.Nodup
import Mathlib.Tactic.Ring

/-! # Dictionaries of lists -/
namespace Verif.Plot

variable {γ δ : Type}

/-- A choice of a first name. -/
def Picks (pick : List String → String) : Prop := ∀ l : List String, l ≠ [] → pick l ∈ l

/-- Columns of equal length under distinct names. -/
def Rect (d : Dict δ) (n : ℕ) : Prop := (keys d).Nodup ∧ ∀ e ∈ d, e.2.length = n

theorem keys_mapVals (f : String → List δ → List δ) (d : Dict δ) : keys (mapVals f d) = keys d := by
  simp [keys, mapVals, Function.comp_def]

theorem find_mem (d : List (String × γ)) (k : String) : (d.find? fun e => e.1 = k) = none ↔ k ∉ keys d := by
  simp only [keys, List.mem_map, List.find?_eq_none, decide_eq_true_eq]
  constructor
  · rintro h ⟨e, he, rfl⟩; exact h e he rfl
  · intro h e he hk; exact h ⟨e, he, hk⟩

theorem find_nodup : ∀ (d : List (String × γ)) (e : String × γ), (keys d).Nodup → e ∈ d → (d.find? fun x => x.1 = e.1) = some e
  | x :: d, e, hn, he => by
    have hn' : x.1 ∉ keys d ∧ (keys d).Nodup := by simpa [keys] using hn
    rcases List.mem_cons.1 he with h | h
    · subst h; simp
    · have : ¬ x.1 = e.1 := fun hx => hn'.1 (by rw [hx]; exact List.mem_map.2 ⟨e, h, rfl⟩)
      rw [List.find?_cons_of_neg (by simpa using this)]
      exact find_nodup d e hn'.2 h

theorem get_mem {d : Dict δ} (hn : (keys d).Nodup) {e : String × List δ} (he : e ∈ d) : get d e.1 = e.2 := by
  unfold get; rw [find_nodup d e hn he]; rfl

theorem get_none {d : Dict δ} {k : String} (h : k ∉ keys d) : get d k = [] := by
  unfold get; rw [(find_mem d k).2 h]; rfl

theorem get_len {d : Dict δ} {n : ℕ} (h : Rect d n) {k : String} (hk : k ∈ keys d) : (get d k).length = n := by
  obtain ⟨e, he, rfl⟩ := List.mem_map.1 hk
  rw [get_mem h.1 he]; exact h.2 e he

theorem get_mapVals {d : Dict δ} (f : String → List δ → List δ) {k : String} (hn : (keys d).Nodup) (hk : k ∈ keys d) :
    get (mapVals f d) k = f k (get d k) := by
  obtain ⟨e, he, rfl⟩ := List.mem_map.1 hk
  have h1 : (e.1, f e.1 e.2) ∈ mapVals f d := List.mem_map.2 ⟨e, he, rfl⟩
  have h2 := get_mem (by rw [keys_mapVals]; exact hn) h1
  rw [get_mem hn he]; exact h2

theorem rect_mapVals {d : Dict δ} (f : String → List δ → List δ) {m : ℕ} (hn : (keys d).Nodup)
    (hf : ∀ e ∈ d, (f e.1 e.2).length = m) : Rect (mapVals f d) m := by
  refine ⟨by rw [keys_mapVals]; exact hn, ?_⟩
  intro e he
  obtain ⟨x, hx, rfl⟩ := List.mem_map.1 he
  exact hf x hx

theorem firstLen_rect {pick : List String → String} (hp : Picks pick) {d : Dict δ} {n : ℕ} (h : Rect d n) (hd : d ≠ []) :
    firstLen pick d = n := by
  unfold firstLen; rw [if_neg hd]
  exact get_len h (hp _ (by simpa [keys] using hd))

/-- One new name. -/
theorem keys_addOne (d : Dict δ) (l : List δ) (k : String) :
    keys (if k ∈ keys d then d else d ++ [(k, l)]) = if k ∈ keys d then keys d else keys d ++ [k] := by
  split_ifs <;> simp [keys]

theorem mem_addNames (l : List δ) : ∀ (ks : List String) (d : Dict δ) (k : String), k ∈ keys (addNames d l ks) ↔ k ∈ keys d ∨ k ∈ ks
  | [], d, k => by simp [addNames]
  | x :: ks, d, k => by
    rw [addNames, mem_addNames l ks, keys_addOne]
    split_ifs with h
    · constructor
      · rintro (h' | h') <;> simp [h']
      · rintro (h' | h')
        · exact .inl h'
        · rcases List.mem_cons.1 h' with e | e
          · subst e; exact .inl h
          · exact .inr e
    · simp only [List.mem_append, List.mem_cons, List.not_mem_nil, or_false, or_assoc]

theorem nodup_addNames (l : List δ) : ∀ (ks : List String) (d : Dict δ), (keys d).Nodup → (keys (addNames d l ks)).Nodup
  | [], d, h => h
  | x :: ks, d, h => by
    rw [addNames]
    apply nodup_addNames l ks
    rw [keys_addOne]
    split_ifs with hx
    · exact h
    · rw [List.nodup_append]
      exact ⟨h, by simp, by rintro a ha b hb rfl; exact hx ((List.mem_singleton.1 hb) ▸ ha)⟩

theorem addNames_mem (l : List δ) : ∀ (ks : List String) (d : Dict δ) (e : String × List δ), e ∈ addNames d l ks → e ∈ d ∨ (e.2 = l ∧ e.1 ∈ ks ∧ e.1 ∉ keys d)
  | [], d, e, h => .inl h
  | x :: ks, d, e, h => by
    rw [addNames] at h
    rcases addNames_mem l ks _ e h with h' | ⟨h1, h2, h3⟩
    · split_ifs at h' with hx
      · exact .inl h'
      · rcases List.mem_append.1 h' with h' | h'
        · exact .inl h'
        · rw [List.mem_singleton.1 h']; exact .inr ⟨rfl, by simp, hx⟩
    · refine .inr ⟨h1, by simp [h2], fun hk => h3 ?_⟩
      rw [keys_addOne]; split_ifs
      · exact hk
      · simp [hk]

theorem addNames_sub (l : List δ) : ∀ (ks : List String) (d : Dict δ) (e : String × List δ), e ∈ d → e ∈ addNames d l ks
  | [], _, _, h => h
  | x :: ks, d, e, h => by
    rw [addNames]
    apply addNames_sub l ks
    split_ifs
    · exact h
    · exact List.mem_append_left _ h

theorem get_addNames {d : Dict δ} (hn : (keys d).Nodup) (l : List δ) (ks : List String) (k : String) :
    get (addNames d l ks) k = if k ∈ keys d then get d k else if k ∈ ks then l else [] := by
  have hn' := nodup_addNames l ks d hn
  by_cases hk : k ∈ keys d
  · rw [if_pos hk]
    obtain ⟨e, he, rfl⟩ := List.mem_map.1 hk
    rw [get_mem hn he, get_mem hn' (addNames_sub l ks d e he)]
  · rw [if_neg hk]
    by_cases hs : k ∈ ks
    · rw [if_pos hs]
      obtain ⟨e, he, hek⟩ := List.mem_map.1 ((mem_addNames l ks d k).2 (.inr hs))
      subst hek
      rw [get_mem hn' he]
      rcases addNames_mem l ks d e he with h | h
      · exact absurd (List.mem_map.2 ⟨e, h, rfl⟩) hk
      · exact h.1
    · rw [if_neg hs, get_none]
      rw [mem_addNames]; tauto

theorem addNames_nil (l : List δ) (ks : List String) (d : Dict δ) (h : addNames d l ks = []) : d = [] ∧ ks = [] := by
  constructor
  · rcases d with _ | ⟨e, d⟩
    · rfl
    · have := addNames_sub l ks (e :: d) e (by simp)
      rw [h] at this; simp at this
  · rcases ks with _ | ⟨k, ks⟩
    · rfl
    · have := (mem_addNames l (k :: ks) d k).2 (.inr (by simp))
      rw [h] at this; simp [keys] at this

end Verif.Plot
