import Verif.Plot.Props

/-! # C253: what is written to text files -/
namespace Verif.Plot

variable {α β γ : Type}

theorem rows_ok (d : Dict (Option α)) (vars : List String) (n : ℕ) (h : Rect d n) (hv : ∀ v ∈ vars, v ∈ keys d) :
    ∀ l : List ℕ, (∀ i ∈ l, i < n) → rows d vars l = (l.map fun i : ℕ => vars.map fun v => (get d v).getD i none, true)
  | [], _ => rfl
  | i :: l, hl => by
    have hi := hl i (by simp)
    have : (vars.all fun v => decide (v ∈ keys d ∧ i < (get d v).length)) = true := by
      rw [List.all_eq_true]
      intro v hvv
      have := hv v hvv
      simp [this, get_len h this, hi]
    rw [rows, if_pos this, rows_ok d vars n h hv l fun j hj => hl j (by simp [hj])]
    rfl

/-- **C253**: for columns given as a list or tuple, the file has their names and one line per row, with the values of the columns in that row. -/
theorem C253_rows_partial (sorted : List String → List String) (s : St α β γ) (n : ℕ) (h : Rect s.data n) (l : List String) (hl : l ≠ [])
    (hv : ∀ v ∈ l, v ∈ keys s.data) :
    s.save sorted (.seq l) = (l, (List.range n).map fun i : ℕ => l.map fun v => (get s.data v).getD i none, true) := by
  unfold St.save; dsimp only
  rw [if_neg hl]
  rcases l with _ | ⟨v, l⟩
  · exact absurd rfl hl
  · have hk := hv v (by simp)
    unfold write; dsimp only
    rw [if_pos hk, get_len h hk, rows_ok s.data _ n h hv _ fun i hi => List.mem_range.1 hi]

/-- All columns are written if none are named. -/
theorem C253_all (sorted : List String → List String) (hs : ∀ l, (sorted l).Perm l) (s : St α β γ) (n : ℕ) (h : Rect s.data n) (hd : s.data ≠ []) :
    s.save sorted .all = (sorted (keys s.data), (List.range n).map fun i : ℕ => (sorted (keys s.data)).map fun v => (get s.data v).getD i none, true) ∧
      s.save sorted (.seq []) = s.save sorted .all := by
  have hk : keys s.data ≠ [] := by simpa [keys] using hd
  have hne : sorted (keys s.data) ≠ [] := by
    intro h0
    have := (hs (keys s.data)).length_eq
    rw [h0] at this
    exact hk (List.length_eq_zero_iff.1 this.symm)
  have := C253_rows_partial sorted s n h (sorted (keys s.data)) hne fun v hv => (hs _).mem_iff.1 hv
  unfold St.save at this ⊢; dsimp only at this ⊢
  rw [if_neg hne] at this
  exact ⟨this, by simp⟩

/-- A column that is not there raises an exception. -/
theorem C253_missing (sorted : List String → List String) (s : St α β γ) (n : ℕ) (h : Rect s.data n) (hn : 0 < n) (l : List String) (v : String) (hv : v ∈ l)
    (hk : v ∉ keys s.data) : (s.save sorted (.seq l)).2 = ([], false) := by
  unfold St.save; dsimp only
  rw [if_neg (by rintro rfl; simp at hv)]
  rcases l with _ | ⟨w, l⟩
  · simp at hv
  · unfold write; dsimp only
    split_ifs with hw
    · rw [get_len h hw]
      obtain ⟨m, rfl⟩ := Nat.exists_eq_succ_of_ne_zero hn.ne'
      rw [List.range_succ_eq_map, rows, if_neg]
      intro hall
      rw [List.all_eq_true] at hall
      have := hall v hv
      simp [hk] at this
    · rfl

/-- Sets of names are named in the documentation, but an exception is raised after the names were written; so it is without data. -/
theorem C253_violated (sorted : List String → List String) (hs : ∀ l, (sorted l).Perm l) (s : St α β γ) (l : List String) (hl : l ≠ []) :
    s.save sorted (.set l) = (l, [], false) ∧ (s.data = [] → s.save sorted .all = ([], [], false)) := by
  refine ⟨by unfold St.save; dsimp only; rw [if_neg hl], fun hd => ?_⟩
  unfold St.save; dsimp only
  rw [hd]
  have : sorted (keys ([] : Dict (Option α))) = [] := List.Perm.eq_nil (hs _)
  rw [this]; rfl

/-- Beside C253: two rows of two columns. -/
example : (⟨[("t", [some 1, some 2]), ("u", [none, some 5])], [], [], []⟩ : St ℕ String Unit).save id (.seq ["u", "t"]) =
    (["u", "t"], [[none, some 1], [some 5, some 2]], true) := by rfl

end Verif.Plot
