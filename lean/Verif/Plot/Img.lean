import Verif.Plot.Props
import Mathlib.Data.List.Induction

/-! # C249: images beside rows -/
namespace Verif.Plot

variable {α β γ : Type}

/-- The change of one list of images. -/
def putOne (n : ℕ) (kw : List (String × β)) (k : String) (l : List (Option β)) : List (Option β) :=
  let l := match fnd kw k with
    | some v => if 0 < l.length then l ++ List.replicate (n - l.length - 1) (lastOr none l) ++ [some v] else List.replicate (n - 1) none ++ [some v]
    | none => l
  if l.length < n then l ++ List.replicate (n - l.length) (lastOr none l) else l

theorem putImgs_eq (n : ℕ) (kw : List (String × β)) (d : Dict (Option β)) : putImgs n kw d = mapVals (putOne n kw) d := rfl

theorem putOne_given {n : ℕ} {kw : List (String × β)} {k : String} {v : β} (h : fnd kw k = some v) (l : List (Option β)) (hn : 0 < n)
    (hl : l.length = n - 1) : putOne n kw k l = l ++ [some v] := by
  unfold putOne; rw [h]; dsimp only
  by_cases h0 : 0 < l.length
  · rw [if_pos h0]
    have : n - l.length - 1 = 0 := by omega
    rw [this]
    rw [if_neg (by simp; omega)]; simp
  · rw [if_neg h0, if_neg (by simp; omega)]
    have : l = [] := List.length_eq_zero_iff.1 (by omega)
    have h1 : n - 1 = 0 := by rw [← hl, this]; rfl
    rw [h1, this]; rfl

theorem putOne_new {n : ℕ} {kw : List (String × β)} {k : String} {v : β} (h : fnd kw k = some v) (hn : 0 < n) :
    putOne n kw k [] = List.replicate (n - 1) none ++ [some v] := by
  unfold putOne; rw [h]; dsimp only
  have h0 : ¬ 0 < ([] : List (Option β)).length := by simp
  simp only [if_neg h0]
  have : ¬ (List.replicate (n - 1) none ++ [some v] : List (Option β)).length < n := by simp; omega
  rw [if_neg this]

theorem putOne_other {n : ℕ} {kw : List (String × β)} {k : String} (h : fnd kw k = none) (l : List (Option β)) (hn : 0 < n)
    (hl : l.length = n - 1) : putOne n kw k l = l ++ [lastOr none l] := by
  unfold putOne; rw [h]; dsimp only
  have : n - l.length = 1 := by omega
  rw [if_pos (by omega), this]; rfl

/-- Lists repeated up to the row before the last one. -/
def padTo (n : ℕ) (l : List (Option β)) : List (Option β) := l ++ List.replicate (n - 1 - l.length) (lastOr none l)

theorem padTo_len {n : ℕ} {l : List (Option β)} (h : l.length ≤ n - 1) : (padTo n l).length = n - 1 := by
  unfold padTo; simp; omega

theorem mapVals_id {δ : Type} (f : String → List δ → List δ) (d : Dict δ) (h : ∀ e ∈ d, f e.1 e.2 = e.2) : mapVals f d = d := by
  unfold mapVals
  conv_rhs => rw [← List.map_id d]
  apply List.map_congr_left
  intro e he; rw [h e he]; rfl

/-- Before images are put: rows are kept, lists are as long as all rows but one, or are new and empty. -/
theorem align_spec (pick : List String → String) (hp : Picks pick) (s : St α β γ) (n m : ℕ) (hr : Rect s.data n) (hd : s.data ≠ []) (hn : 0 < n)
    (him : Rect s.img m) (hm : s.img = [] ∨ (0 < m ∧ m < n)) (ks : List String) (hks : ks ≠ []) :
    ∃ g : List (Option β) → List (Option β), (({ s with img := addNames s.img [] ks } : St α β γ).align pick) = { s with img := mapVals (fun _ => g) (addNames s.img [] ks) } ∧
      (∀ l, l.length = m → 0 < m → m < n → g l = padTo n l) ∧ (g [] = [] ∨ g [] = padTo n []) ∧
      firstLen pick (mapVals (fun _ => g) (addNames s.img [] ks)) + 1 = n := by
  set I := addNames s.img [] ks with hI
  have hI0 : I ≠ [] := fun h => hks (addNames_nil _ _ _ h).2
  have hIn : (keys I).Nodup := nodup_addNames _ _ _ him.1
  have hent : ∀ e ∈ I, (e.2.length = m ∧ 0 < m ∧ m < n) ∨ e.2 = [] := by
    intro e he
    rcases addNames_mem _ _ _ e he with h | h
    · left
      rcases hm with h' | h'
      · rw [h'] at h; simp at h
      · exact ⟨him.2 e h, h'⟩
    · exact .inr h.1
  have hkI : keys I ≠ [] := by simpa [keys] using hI0
  have hpk := hp _ hkI
  obtain ⟨e₀, he₀, hek⟩ := List.mem_map.1 hpk
  have hF : firstLen pick I = e₀.2.length := by
    unfold firstLen; rw [if_neg hI0, ← hek, get_mem hIn he₀]
  have hD : firstLen pick s.data = n := firstLen_rect hp hr hd
  have hG : ∀ g : List (Option β) → List (Option β), firstLen pick (mapVals (fun _ => g) I) = (g e₀.2).length := by
    intro g
    unfold firstLen
    rw [if_neg (by intro h; apply hI0; simpa [mapVals] using h), keys_mapVals, get_mapVals _ hIn hpk, ← hek, get_mem hIn he₀]
  by_cases hc : firstLen pick I < n - 1
  · refine ⟨padTo n, ?_, fun l _ _ _ => rfl, .inr rfl, ?_⟩
    · unfold St.align; dsimp only
      rw [if_pos ⟨hd, hI0⟩, hD, if_pos hc]
      congr 1
      unfold mapVals padTo
      apply List.map_congr_left
      intro e _
      have : n - e.2.length - 1 = n - 1 - e.2.length := by omega
      dsimp only; rw [this]
    · rw [hG, padTo_len (by rcases hent e₀ he₀ with h | h <;> [omega; (rw [h]; simp)])]; omega
  · have h2 : ¬ n < firstLen pick I := by
      rw [hF]; rcases hent e₀ he₀ with h | h <;> [omega; (rw [h]; simp)]
    refine ⟨id, ?_, ?_, .inl rfl, ?_⟩
    · unfold St.align; dsimp only
      rw [if_pos ⟨hd, hI0⟩, hD, if_neg hc, if_neg h2, mapVals_id _ _ fun e _ => rfl]
    · intro l hl h0 hmn
      have : m = n - 1 := by
        rcases hent e₀ he₀ with h | h
        · rw [hF] at hc; omega
        · rw [hF, h] at hc; simp at hc; omega
      unfold padTo; rw [hl, this]; simp
    · rw [hG, id]
      rcases hent e₀ he₀ with h | h
      · rw [hF] at hc; omega
      · rw [hF, h] at hc; rw [h]; simp at hc ⊢; omega

/-- **C249**: images given after a row belong to that row; the rows before without images repeat the last ones, or have none for new names; names that are
not given repeat their last image.  Proved when there are fewer images than rows. -/
theorem C249_row_partial (pick : List String → String) (hp : Picks pick) (s : St α β γ) (n m : ℕ) (hr : Rect s.data n) (hd : s.data ≠ []) (hn : 0 < n)
    (him : Rect s.img m) (hm : s.img = [] ∨ (0 < m ∧ m < n)) (kw : List (String × β)) (hkw : kw ≠ []) (hk : (kw.map Prod.fst).Nodup) :
    ∃ s', s.addImg pick kw = (s', true) ∧ s'.data = s.data ∧ Rect s'.img n ∧
      (∀ k, k ∈ keys s'.img ↔ k ∈ keys s.img ∨ k ∈ kw.map Prod.fst) ∧
      (∀ k v, (k, v) ∈ kw → (get s'.img k)[n - 1]? = some (some v)) ∧
      (∀ k ∈ keys s.img, (get s'.img k).take m = get s.img k) ∧
      (∀ k ∈ keys s.img, ∀ i, m ≤ i → i < n → (i < n - 1 ∨ k ∉ kw.map Prod.fst) → (get s'.img k)[i]? = some ((get s.img k).getLastD none)) ∧
      (∀ k ∈ kw.map Prod.fst, k ∉ keys s.img → ∀ i < n - 1, (get s'.img k)[i]? = some none) := by
  have hks : keys kw ≠ [] := by simpa [keys] using hkw
  obtain ⟨g, g1, g2, g3, g4⟩ := align_spec pick hp s n m hr hd hn him hm (keys kw) hks
  have hIn : (keys (addNames s.img [] (keys kw))).Nodup := nodup_addNames _ _ _ him.1
  set I := addNames s.img [] (keys kw) with hI
  -- the lists in the end
  have hs : s.addImg pick kw = ({ s with img := mapVals (putOne n kw) (mapVals (fun _ => g) I) },
      (mapVals (putOne n kw) (mapVals (fun _ => g) I)).all fun e => (mapVals (putOne n kw) (mapVals (fun _ => g) I)).all fun e' => e.2.length == e'.2.length) := by
    unfold St.addImg
    dsimp only
    rw [← hI, g1]
    dsimp only
    rw [g4, putImgs_eq]
  set J := mapVals (putOne n kw) (mapVals (fun _ => g) I) with hJ
  have hold : ∀ k ∈ keys s.img, 0 < m ∧ m < n := by
    intro k hk'
    rcases hm with h | h
    · rw [h] at hk'; simp [keys] at hk'
    · exact h
  have hgetJ : ∀ k ∈ keys I, get J k = putOne n kw k (g (get I k)) := by
    intro k hkI
    rw [hJ, get_mapVals _ (by rw [keys_mapVals]; exact hIn) (by rw [keys_mapVals]; exact hkI), get_mapVals _ hIn hkI]
  have hkJ : keys J = keys I := by rw [hJ, keys_mapVals, keys_mapVals]
  have hkI : ∀ k, k ∈ keys I ↔ k ∈ keys s.img ∨ k ∈ keys kw := mem_addNames _ _ _
  have hO : ∀ k ∈ keys s.img, ∀ v, fnd kw k = some v → get J k = padTo n (get s.img k) ++ [some v] := by
    intro k hk' v hv
    have h0 := hold k hk'
    have hlen := get_len him hk'
    rw [hgetJ k ((hkI k).2 (.inl hk')), get_addNames him.1, if_pos hk', g2 _ hlen h0.1 h0.2]
    exact putOne_given hv _ hn (padTo_len (by omega))
  have hU : ∀ k ∈ keys s.img, fnd kw k = none → get J k = padTo n (get s.img k) ++ [(get s.img k).getLastD none] := by
    intro k hk' hv
    have h0 := hold k hk'
    have hlen := get_len him hk'
    rw [hgetJ k ((hkI k).2 (.inl hk')), get_addNames him.1, if_pos hk', g2 _ hlen h0.1 h0.2, putOne_other hv _ hn (padTo_len (by omega))]
    congr 2
    unfold lastOr padTo lastOr
    have hne : get s.img k ≠ [] := by intro h; rw [h] at hlen; simp at hlen; omega
    by_cases hz : n - 1 - (get s.img k).length = 0
    · rw [hz]; simp
    · obtain ⟨j, hj⟩ := Nat.exists_eq_succ_of_ne_zero hz
      rw [hj, List.replicate_succ', ← List.append_assoc, List.getLastD_eq_getLast?, List.getLast?_concat]; rfl
  have hN : ∀ k, k ∉ keys s.img → ∀ v, fnd kw k = some v → get J k = List.replicate (n - 1) none ++ [some v] := by
    intro k hk' v hv
    have hkk : k ∈ keys kw := by
      by_contra h; rw [(fnd_none kw k).2 h] at hv; cases hv
    rw [hgetJ k ((hkI k).2 (.inr hkk)), get_addNames him.1, if_neg hk', if_pos hkk]
    rcases g3 with h | h
    · rw [h]; exact putOne_new hv hn
    · rw [h, putOne_given hv _ hn (padTo_len (by simp))]
      congr 1
  have hplen : ∀ k ∈ keys s.img, (padTo n (get s.img k)).length = n - 1 := by
    intro k hk'
    have h0 := hold k hk'
    exact padTo_len (by rw [get_len him hk']; omega)
  have hlen : ∀ k ∈ keys J, (get J k).length = n := by
    intro k hkk
    rw [hkJ, hkI] at hkk
    by_cases h1 : k ∈ keys s.img
    · rcases hv : fnd kw k with _ | v
      · rw [hU k h1 hv]; simp [hplen k h1]; omega
      · rw [hO k h1 v hv]; simp [hplen k h1]; omega
    · rcases hv : fnd kw k with _ | v
      · exact absurd (hkk.resolve_left h1) ((fnd_none kw k).1 hv)
      · rw [hN k h1 v hv]; simp; omega
  have hrect : Rect J n := by
    refine ⟨by rw [hkJ]; exact hIn, fun e he => ?_⟩
    have := hlen e.1 (List.mem_map.2 ⟨e, he, rfl⟩)
    rwa [get_mem (by rw [hkJ]; exact hIn) he] at this
  refine ⟨{ s with img := J }, ?_, rfl, hrect, ?_, ?_, ?_, ?_, ?_⟩
  · rw [hs]
    congr 1
    rw [List.all_eq_true]
    intro e he
    rw [List.all_eq_true]
    intro e' he'
    rw [hrect.2 e he, hrect.2 e' he']; simp
  · intro k; show k ∈ keys J ↔ _; rw [hkJ]; exact hkI k
  · intro k v hkv
    show (get J k)[n - 1]? = _
    have hv : fnd kw k = some v := (fnd_mem hk).2 hkv
    by_cases h1 : k ∈ keys s.img
    · rw [hO k h1 v hv, List.getElem?_append_right (by rw [hplen k h1]), hplen k h1]; simp
    · rw [hN k h1 v hv, List.getElem?_append_right (by simp)]; simp
  · intro k hk'
    show (get J k).take m = _
    have hl := get_len him hk'
    rcases hv : fnd kw k with _ | v
    · rw [hU k hk' hv]; unfold padTo; rw [List.append_assoc]; exact List.take_left' hl
    · rw [hO k hk' v hv]; unfold padTo; rw [List.append_assoc]; exact List.take_left' hl
  · intro k hk' i hmi hin hor
    show (get J k)[i]? = _
    have hl := get_len him hk'
    have hpad : i < n - 1 → ∀ t, (padTo n (get s.img k) ++ t)[i]? = some ((get s.img k).getLastD none) := by
      intro hi t
      rw [List.getElem?_append_left (by rw [hplen k hk']; exact hi)]
      unfold padTo lastOr
      rw [List.getElem?_append_right (by omega), List.getElem?_replicate, if_pos (by omega)]
    by_cases hi : i < n - 1
    · rcases hv : fnd kw k with _ | v
      · rw [hU k hk' hv]; exact hpad hi _
      · rw [hO k hk' v hv]; exact hpad hi _
    · have hno := hor.resolve_left hi
      rw [hU k hk' ((fnd_none kw k).2 hno), List.getElem?_append_right (by rw [hplen k hk']; omega), hplen k hk']
      have : i - (n - 1) = 0 := by omega
      rw [this]; rfl
  · intro k hkk hk' i hi
    show (get J k)[i]? = _
    rcases hv : fnd kw k with _ | v
    · exact absurd hkk ((fnd_none kw k).1 hv)
    · rw [hN k hk' v hv, List.getElem?_append_left (by simpa using hi), List.getElem?_replicate, if_pos hi]

/-- A step of a simulation: a row, then images. -/
def St.rec1 (pick : List String → String) (s : St α β γ) (x : List (String × Val α) × List (String × β)) : St α β γ :=
  ((s.op pick (.addData x.1)).op pick (.addImg x.2))

/-- **C249**: if each step of a simulation records a row and then images, the images of a step are beside its row, whatever names are given in the steps. -/
theorem C249_steps_partial (pick : List String → String) (hp : Picks pick) (steps : List (List (String × Val α) × List (String × β)))
    (h1 : ∀ x ∈ steps, Clean x.1 ∧ (∀ k, (k, .other) ∉ x.1) ∧ (∃ k v, Gives x.1 k v) ∧ x.2 ≠ [] ∧ (x.2.map Prod.fst).Nodup) :
    Rect (steps.foldl (St.rec1 pick) (St.empty : St α β γ)).data steps.length ∧ Rect (steps.foldl (St.rec1 pick) (St.empty : St α β γ)).img steps.length ∧
      ∀ (i : ℕ) (x : List (String × Val α) × List (String × β)), steps[i]? = some x → (∀ k v, Gives x.1 k v → (get (steps.foldl (St.rec1 pick) (St.empty : St α β γ)).data k)[i]? = some v) ∧
        ∀ k v, (k, v) ∈ x.2 → (get (steps.foldl (St.rec1 pick) (St.empty : St α β γ)).img k)[i]? = some (some v) := by
  suffices h : (steps = [] → (steps.foldl (St.rec1 pick) (St.empty : St α β γ)) = St.empty) ∧
      (steps ≠ [] → (steps.foldl (St.rec1 pick) (St.empty : St α β γ)).data ≠ [] ∧ (steps.foldl (St.rec1 pick) (St.empty : St α β γ)).img ≠ []) ∧
      Rect (steps.foldl (St.rec1 pick) (St.empty : St α β γ)).data steps.length ∧ Rect (steps.foldl (St.rec1 pick) (St.empty : St α β γ)).img steps.length ∧
      ∀ (i : ℕ) (x : List (String × Val α) × List (String × β)), steps[i]? = some x → (∀ k v, Gives x.1 k v → (get (steps.foldl (St.rec1 pick) (St.empty : St α β γ)).data k)[i]? = some v) ∧
        ∀ k v, (k, v) ∈ x.2 → (get (steps.foldl (St.rec1 pick) (St.empty : St α β γ)).img k)[i]? = some (some v) from h.2.2
  induction steps using List.reverseRecOn with
  | nil => exact ⟨fun _ => rfl, fun h => absurd rfl h, rect_nil 0, rect_nil 0, by simp⟩
  | append_singleton steps x ih =>
    obtain ⟨i0, i1, i2, i3, i4⟩ := ih fun y hy => h1 y (by simp [hy])
    obtain ⟨c1, c2, c3, c4, c5⟩ := h1 x (by simp)
    rw [List.foldl_append, List.foldl_cons, List.foldl_nil]
    set s : St α β γ := steps.foldl (St.rec1 pick) St.empty with hs
    set n := steps.length with hnl
    have e0 : s.data = [] → n = 0 := by
      intro h; by_contra hne
      exact (i1 (by intro h'; rw [hnl, h'] at hne; simp at hne)).1 h
    have ei : s.img = [] ∨ 0 < n := by
      by_cases h : steps = []
      · left; rw [i0 h]; rfl
      · right; exact List.length_pos_iff.2 h
    obtain ⟨s1, a1, a2, a3, _, _, a4, a5, _, a6, _⟩ := C248_row pick hp s n i2 e0 ei x.1 c1 c2
    obtain ⟨k₀, v₀, hk₀⟩ := c3
    have hd1 : s1.data ≠ [] := by
      intro h
      have := (a4 k₀).2 (.inr ⟨v₀, hk₀⟩)
      rw [h] at this; simp [keys] at this
    obtain ⟨s2, b1, b2, b3, b4, b5, b6, _, _⟩ := C249_row_partial pick hp s1 (n + 1) n a2 hd1 (by omega) (by rw [a3]; exact i3)
      (by rw [a3]; rcases ei with h | h <;> [exact .inl h; exact .inr ⟨h, by omega⟩]) x.2 c4 c5
    have hrec : s.rec1 pick x = s2 := by
      unfold St.rec1
      have : s.op pick (.addData x.1) = s1 := by unfold St.op; dsimp only; rw [a1]
      rw [this]; unfold St.op; dsimp only; rw [b1]
    rw [hrec]
    have hlen : (steps ++ [x]).length = n + 1 := by simp [hnl]
    rw [hlen]
    refine ⟨by simp, fun _ => ⟨by rw [b2]; exact hd1, ?_⟩, by rw [b2]; exact a2, b3, ?_⟩
    · obtain ⟨⟨k, v⟩, hkv⟩ := List.exists_mem_of_ne_nil _ c4
      intro h
      have := (b4 k).2 (.inr (List.mem_map.2 ⟨_, hkv, rfl⟩))
      rw [h] at this; simp [keys] at this
    · intro i y hy
      rcases Nat.lt_or_ge i n with hi | hi
      · rw [List.getElem?_append_left hi] at hy
        obtain ⟨j1, j2⟩ := i4 i y hy
        have hsome : ∀ (δ : Type) (d : Dict δ) (k : String) (w : δ), (get d k)[i]? = some w → k ∈ keys d := by
          intro δ d k w h; by_contra hk; rw [get_none hk] at h; simp at h
        constructor
        · intro k v hv
          have h' := j1 k v hv
          rw [b2]
          rw [← a5 k (hsome _ _ k v h'), List.getElem?_take, if_pos hi] at h'
          exact h'
        · intro k v hv
          have h' := j2 k v hv
          have hk' : k ∈ keys s1.img := by rw [a3]; exact hsome _ _ k _ h'
          have h6 := b6 k hk'
          rw [a3] at h6
          rw [← h6, List.getElem?_take, if_pos hi] at h'
          exact h'
      · have hin : i = n := by
          have := (List.getElem?_eq_some_iff.1 hy).1
          rw [hlen] at this; omega
        subst hin
        have hxy : y = x := by
          rw [List.getElem?_append_right le_rfl] at hy
          simpa using hy.symm
        subst hxy
        exact ⟨fun k v hv => by rw [b2]; exact a6 k v hv, fun k v hv => b5 k v hv⟩

theorem picks_one {pick : List String → String} (hp : Picks pick) (k : String) : pick [k] = k := List.mem_singleton.1 (hp [k] (by simp))

/-- Images given before the row of the same step are not beside it: the first row with numbers is the second one. -/
theorem C249_violated_before (pick : List String → String) (hp : Picks pick) :
    let s := (((St.empty : St ℝ String Unit).op pick (.addImg [("v", "1.png")])).op pick (.addData [("t", .num (some 1))]))
    get s.img "v" = [some "1.png"] ∧ get s.data "t" = [none, some 1] := by
  have h := picks_one hp "v"
  simp [St.op, St.addImg, St.empty, addNames, keys, St.align, putImgs, mapVals, firstLen, get, h, St.addData, expand, expandOne, Res.bind, St.addRow, St.samples, look]

/-- Images given again without rows, with a new name: the assertion fails if the new name comes first in the dictionary. -/
theorem C249_violated_assert : ∃ pick, Picks pick ∧
    ((((St.empty : St ℝ String Unit).addImg pick [("v", "1.png")]).1).addImg pick [("v", "2.png"), ("w", "3.png")]).2 = false := by
  refine ⟨fun l => l.getLastD "", ?_, ?_⟩
  · intro l hl
    dsimp only
    rw [List.getLastD_eq_getLast?, List.getLast?_eq_some_getLast hl]
    exact List.getLast_mem hl
  · simp [St.addImg, St.empty, addNames, keys, St.align, putImgs, mapVals, firstLen, get]

/-- Lists of images are never empty, as line 289 needs. -/
theorem imgs_nonempty (pick : List String → String) (hp : Picks pick) (ops : List (Op α β)) :
    ∀ e ∈ (ops.foldl (St.op pick) (St.empty : St α β γ)).img, e.2 ≠ [] := by
  have : ∀ (ops : List (Op α β)) (s : St α β γ), (∀ e ∈ s.img, e.2 ≠ []) → ∀ e ∈ (ops.foldl (St.op pick) s).img, e.2 ≠ [] := by
    intro ops
    induction ops with
    | nil => intro s h; exact h
    | cons o ops ih =>
      intro s h
      apply ih
      rcases o with _ | _ | _ | ks | d | kw
      · exact h
      · exact h
      · exact h
      · exact h
      · show ∀ e ∈ (match s.addData pick d with | .ok s' => s' | _ => s).img, _
        unfold St.addData
        rcases expand d (keys d) with d' | _ | _
        · exact h
        · exact h
        · exact h
      · show ∀ e ∈ putImgs _ kw _, _
        rw [putImgs_eq]
        intro e he
        obtain ⟨x, hx, rfl⟩ := List.mem_map.1 he
        have hxe : x.1 ∈ keys kw ∨ x.2 ≠ [] := by
          have hmem : ∃ y ∈ addNames s.img [] (keys kw), x.1 = y.1 ∧ (y.2 ≠ [] → x.2 ≠ []) := by
            unfold St.align at hx; dsimp only at hx
            split_ifs at hx
            · obtain ⟨y, hy, rfl⟩ := List.mem_map.1 hx
              exact ⟨y, hy, rfl, fun h => by simp [h]⟩
            · exact ⟨x, hx, rfl, id⟩
            · exact ⟨x, hx, rfl, id⟩
            · exact ⟨x, hx, rfl, id⟩
          obtain ⟨y, hy, h1, h2⟩ := hmem
          rcases addNames_mem _ _ _ y hy with h' | h'
          · exact .inr (h2 (h y h'))
          · exact .inl (h1 ▸ h'.2.1)
        dsimp only
        rcases hv : fnd kw x.1 with _ | v
        · have hx2 := hxe.resolve_left ((fnd_none kw x.1).1 hv)
          unfold putOne; rw [hv]; dsimp only
          split_ifs <;> simp [hx2]
        · unfold putOne; rw [hv]; dsimp only
          split_ifs <;> simp
  exact this ops _ (by simp [St.empty])

/-- Beside C249: two steps, a new image in the second one. -/
example : ∀ x ∈ [([("t", Val.num (some (1 : ℝ)))], [("v", "1.png")]), ([("t", .num (some 2)), ("u", .num none)], [("v", "2.png"), ("w", "3.png")])],
    Clean x.1 ∧ (∀ k, (k, Val.other) ∉ x.1) ∧ (∃ k v, Gives x.1 k v) ∧ x.2 ≠ [] ∧ (x.2.map Prod.fst).Nodup := by
  intro x hx
  simp only [List.mem_cons, List.not_mem_nil, or_false] at hx
  rcases hx with rfl | rfl
  · exact ⟨⟨by simp [keys], by simp, by simp, by simp⟩, by simp, ⟨"t", some 1, .inl (by simp)⟩, by simp, by simp⟩
  · exact ⟨⟨by simp [keys], by simp, by simp, by simp⟩, by simp, ⟨"t", some 2, .inl (by simp)⟩, by simp, by simp⟩

end Verif.Plot
