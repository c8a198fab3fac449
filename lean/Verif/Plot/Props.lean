import Verif.Plot.Expand

/-! # C248, C250, C251, C252: what data for plots hold -/
namespace Verif.Plot

variable {α β γ : Type}

/-- Nothing recorded. -/
def St.empty : St α β γ := ⟨[], [], [], []⟩

/-- What a script may call. -/
inductive Op (α β : Type)
  | reset
  | resetData
  | reverse
  | addColumns (ks : List String)
  | addData (d : List (String × Val α))
  | addImg (kw : List (String × β))

/-- One call; exceptions are caught. -/
def St.op (pick : List String → String) (s : St α β γ) : Op α β → St α β γ
  | .reset => s.reset
  | .resetData => s.resetData
  | .reverse => s.reverse
  | .addColumns ks => s.addColumns pick ks
  | .addData d => match s.addData pick d with
    | .ok s' => s'
    | _ => s
  | .addImg kw => (s.addImg pick kw).1

/-- What is given under the name of a column: a number, or a component of a vector. -/
def Gives (d : List (String × Val α)) (x : String) (v : Option α) : Prop :=
  (x, .num v) ∈ d ∨ ∃ k l c, (k, .comps l) ∈ d ∧ (c, v) ∈ l ∧ x = k ++ "_" ++ c

theorem addRow_data (pick : List String → String) (s : St α β γ) (d : List (String × Val α)) : (s.addRow pick d).data =
    mapVals (fun k l => l ++ List.replicate (s.samples pick - l.length) none ++ [look d k]) (addNames s.data [] (keys d)) := rfl

theorem reverse_data (s : St α β γ) : s.reverse.data = mapVals (fun _ l => l.reverse) s.data := rfl

theorem rect_reverse (s : St α β γ) {n : ℕ} (h : Rect s.data n) : Rect s.reverse.data n := by
  rw [reverse_data]; exact rect_mapVals _ h.1 fun e he => by simp [h.2 e he]

theorem rect_nil {δ : Type} (n : ℕ) : Rect ([] : Dict δ) n := ⟨by simp [keys], by simp⟩

theorem rect_addNames {δ : Type} {d : Dict δ} {n : ℕ} (h : Rect d n) (l : List δ) (hl : l.length = n) (ks : List String) : Rect (addNames d l ks) n := by
  refine ⟨nodup_addNames l ks d h.1, fun e he => ?_⟩
  rcases addNames_mem l ks d e he with h' | h'
  · exact h.2 e h'
  · rw [h'.1, hl]

theorem rect_addRow (pick : List String → String) (hp : Picks pick) (s : St α β γ) (d : List (String × Val α)) {n : ℕ} (h : Rect s.data n) :
    Rect (s.addRow pick d).data (s.samples pick + 1) := by
  rw [addRow_data]
  apply rect_mapVals _ (nodup_addNames _ _ _ h.1)
  intro e he
  have hn : s.data ≠ [] → n ≤ s.samples pick := by
    intro hd
    have := firstLen_rect hp h hd
    unfold St.samples; dsimp only
    split_ifs <;> omega
  have : e.2.length ≤ s.samples pick := by
    rcases addNames_mem _ _ _ e he with h' | h'
    · rw [h.2 e h']; exact hn (by rintro h0; rw [h0] at h'; simp at h')
    · rw [h'.1]; simp
  simp only [List.length_append, List.length_replicate, List.length_singleton]
  omega

theorem rect_align (pick : List String → String) (s : St α β γ) {n : ℕ} (h : Rect s.data n) : ∃ m, Rect (s.align pick).data m := by
  unfold St.align
  split_ifs
  · exact ⟨n, h⟩
  · refine ⟨n + (firstLen pick s.img - firstLen pick s.data), ?_⟩
    dsimp only
    exact rect_mapVals _ h.1 fun e he => by simp [h.2 e he]
  · exact ⟨n, h⟩
  · exact ⟨n, h⟩

theorem rect_op (pick : List String → String) (hp : Picks pick) (s : St α β γ) (o : Op α β) {n : ℕ} (h : Rect s.data n) :
    ∃ m, Rect (s.op pick o).data m := by
  rcases o with _ | _ | _ | ks | d | kw
  · exact ⟨0, rect_nil 0⟩
  · exact ⟨0, rect_nil 0⟩
  · exact ⟨n, rect_reverse s h⟩
  · by_cases hd : s.data = []
    · refine ⟨0, ?_⟩
      have : firstLen pick s.data = 0 := by simp [firstLen, hd]
      show Rect (addNames s.data (List.replicate (firstLen pick s.data) none) ks) 0
      rw [hd]
      exact rect_addNames (rect_nil 0) _ (by simp [firstLen]) ks
    · refine ⟨n, rect_addNames h _ ?_ ks⟩
      rw [List.length_replicate]; exact firstLen_rect hp h hd
  · show ∃ m, Rect (match s.addData pick d with | .ok s' => s' | _ => s).data m
    unfold St.addData
    rcases expand d (keys d) with d' | _ | _
    · exact ⟨_, rect_addRow pick hp s d' h⟩
    · exact ⟨n, h⟩
    · exact ⟨n, h⟩
  · exact rect_align pick { s with img := addNames s.img [] (keys kw) } h

/-- **C248**: whatever is called, in any order, all columns are of equal length and have distinct names. -/
theorem C248_columns (pick : List String → String) (hp : Picks pick) (ops : List (Op α β)) :
    ∃ n, Rect (ops.foldl (St.op pick) (St.empty : St α β γ)).data n := by
  have : ∀ (ops : List (Op α β)) (s : St α β γ) (n : ℕ), Rect s.data n → ∃ m, Rect (ops.foldl (St.op pick) s).data m := by
    intro ops
    induction ops with
    | nil => intro s n h; exact ⟨n, h⟩
    | cons o ops ih =>
      intro s n h
      obtain ⟨m, hm⟩ := rect_op pick hp s o h
      exact ih _ m hm
  exact this ops _ 0 (rect_nil 0)

/-- Names and numbers after vectors were replaced. -/
theorem expand_gives {d : List (String × Val α)} (hd : Clean d) (ho : ∀ k, (k, .other) ∉ d) :
    ∃ d', expand d (keys d) = .ok d' ∧ (∀ x, x ∈ keys d' ↔ ∃ v, Gives d x v) ∧ (∀ x v, Gives d x v → look d' x = v) := by
  obtain ⟨d', e1, e2, e3, e4⟩ := expand_spec hd (keys d) d hd.nodup (fun _ h => h) (fun _ _ => rfl) (fun k _ => ho k)
  have hnum : ∀ x v, (x, Val.num v) ∈ d → fnd d' x = some (.num v) := by
    intro x v h
    rw [e4 x ?_, (fnd_mem hd.nodup).2 h]
    intro k hk l hl
    refine ⟨?_, fun c hc he => hd.fresh k l hl c hc (he ▸ List.mem_map.2 ⟨_, h, rfl⟩)⟩
    rintro rfl
    have h1 := (fnd_mem hd.nodup).2 h
    have h2 := (fnd_mem hd.nodup).2 hl
    rw [h1] at h2; cases h2
  have hgive : ∀ x v, Gives d x v → fnd d' x = some (.num v) := by
    rintro x v (h | ⟨k, l, c, h1, h2, rfl⟩)
    · exact hnum x v h
    · exact e3 k (List.mem_map.2 ⟨_, h1, rfl⟩) l h1 c v h2
  refine ⟨d', e1, fun x => ⟨fun hx => ?_, fun ⟨v, hv⟩ => ?_⟩, fun x v h => ?_⟩
  · by_contra hno
    refine (fnd_none d' x).1 ?_ hx
    by_cases hc : ∃ l, (x, Val.comps l) ∈ d
    · obtain ⟨l, hl⟩ := hc
      exact e2 x (List.mem_map.2 ⟨_, hl, rfl⟩) l hl
    · rw [e4 x ?_, fnd_none]
      · intro hk
        obtain ⟨⟨k, v⟩, hv, rfl⟩ := List.mem_map.1 hk
        rcases v with v | l | _
        · exact hno ⟨v, .inl hv⟩
        · exact hc ⟨l, hv⟩
        · exact ho k hv
      · intro k _ l hl
        refine ⟨fun h => hc ⟨l, h ▸ hl⟩, fun c hcl he => ?_⟩
        obtain ⟨⟨c', v⟩, hv, rfl⟩ := List.mem_map.1 hcl
        exact hno ⟨v, .inr ⟨k, l, c', hl, hv, he⟩⟩
  · by_contra hx
    have := (fnd_none d' x).2 hx
    rw [hgive x v hv] at this; cases this
  · have := hgive x v h
    unfold look; unfold fnd at this; rw [this]

theorem look_none {d : List (String × Val α)} {x : String} (h : x ∉ keys d) : look d x = none := by
  unfold look; rw [(find_mem d x).2 h]; rfl

theorem samples_eq (pick : List String → String) (hp : Picks pick) (s : St α β γ) {n : ℕ} (h : Rect s.data n) (hd : s.data = [] → n = 0)
    (hi : s.img = [] ∨ 0 < n) : s.samples pick = n := by
  have : firstLen pick s.data = n := by
    by_cases h0 : s.data = []
    · rw [hd h0]; simp [firstLen, h0]
    · exact firstLen_rect hp h h0
  unfold St.samples; dsimp only
  rw [this]
  rcases hi with h | h
  · simp [h]
  · rw [if_neg (by omega)]

/-- **C248**: a call of addData adds one row: rows before are kept, new columns have no numbers in them, and the new row has what is given, and no
numbers elsewhere. -/
theorem C248_row (pick : List String → String) (hp : Picks pick) (s : St α β γ) (n : ℕ) (h : Rect s.data n) (h0 : s.data = [] → n = 0)
    (hi : s.img = [] ∨ 0 < n) (d : List (String × Val α)) (hd : Clean d) (ho : ∀ k, (k, .other) ∉ d) :
    ∃ s', s.addData pick d = .ok s' ∧ Rect s'.data (n + 1) ∧ s'.img = s.img ∧ s'.plots = s.plots ∧ s'.labels = s.labels ∧
      (∀ k, k ∈ keys s'.data ↔ k ∈ keys s.data ∨ ∃ v, Gives d k v) ∧
      (∀ k ∈ keys s.data, (get s'.data k).take n = get s.data k) ∧
      (∀ k ∈ keys s'.data, k ∉ keys s.data → (get s'.data k).take n = List.replicate n none) ∧
      (∀ k v, Gives d k v → (get s'.data k)[n]? = some v) ∧
      (∀ k ∈ keys s'.data, (¬ ∃ v, Gives d k v) → (get s'.data k)[n]? = some none) := by
  obtain ⟨d', e1, e2, e3⟩ := expand_gives hd ho
  have hs := samples_eq pick hp s h h0 hi
  have hk : ∀ k, k ∈ keys (s.addRow pick d').data ↔ k ∈ keys s.data ∨ ∃ v, Gives d k v := by
    intro k
    rw [addRow_data, keys_mapVals, mem_addNames, e2]
  have hg : ∀ k ∈ keys (s.addRow pick d').data, get (s.addRow pick d').data k =
      (if k ∈ keys s.data then get s.data k else List.replicate n none) ++ [look d' k] := by
    intro k hkk
    have hkk' : k ∈ keys (addNames s.data [] (keys d')) := by
      rwa [addRow_data, keys_mapVals] at hkk
    rw [addRow_data, get_mapVals _ (nodup_addNames _ _ _ h.1) hkk', get_addNames h.1, hs]
    split_ifs with h1 h2
    · rw [get_len h h1]; simp
    · simp
    · simp
  have hl : ∀ k ∈ keys (s.addRow pick d').data, (if k ∈ keys s.data then get s.data k else List.replicate n none).length = n := by
    intro k _
    split_ifs with h1
    · exact get_len h h1
    · simp
  have hlast : ∀ k ∈ keys (s.addRow pick d').data, (get (s.addRow pick d').data k)[n]? = some (look d' k) := by
    intro k hkk
    rw [hg k hkk, List.getElem?_append_right (by rw [hl k hkk]), hl k hkk]; simp
  refine ⟨s.addRow pick d', by rw [St.addData, e1, Res.bind_ok], ?_, rfl, rfl, rfl, hk, ?_, ?_, ?_, ?_⟩
  · have := rect_addRow pick hp s d' h
    rwa [hs] at this
  · intro k hks
    have hkk := (hk k).2 (.inl hks)
    have := hl k hkk
    rw [hg k hkk, if_pos hks]
    rw [if_pos hks] at this
    exact List.take_left' this
  · intro k hkk hks
    rw [hg k hkk, if_neg hks]
    exact List.take_left' (by simp)
  · intro k v hv
    rw [hlast k ((hk k).2 (.inr ⟨v, hv⟩)), e3 k v hv]
  · intro k hkk hno
    rw [hlast k hkk, look_none fun h => hno ((e2 k).1 h)]

/-- Columns added hold no numbers, and nothing else changes. -/
theorem C248_added (pick : List String → String) (hp : Picks pick) (s : St α β γ) (n : ℕ) (h : Rect s.data n) (h0 : s.data = [] → n = 0) (ks : List String) :
    Rect (s.addColumns pick ks).data n ∧ (∀ k, k ∈ keys (s.addColumns pick ks).data ↔ k ∈ keys s.data ∨ k ∈ ks) ∧
      (∀ k ∈ keys s.data, get (s.addColumns pick ks).data k = get s.data k) ∧
      (∀ k ∈ ks, k ∉ keys s.data → get (s.addColumns pick ks).data k = List.replicate n none) ∧ (s.addColumns pick ks).img = s.img := by
  have hf : firstLen pick s.data = n := by
    by_cases hd : s.data = []
    · rw [h0 hd]; simp [firstLen, hd]
    · exact firstLen_rect hp h hd
  have he : (s.addColumns pick ks).data = addNames s.data (List.replicate n none) ks := by
    rw [St.addColumns, hf]
  rw [he]
  refine ⟨rect_addNames h _ (by simp) ks, mem_addNames _ _ _, ?_, ?_, rfl⟩
  · intro k hk; rw [get_addNames h.1, if_pos hk]
  · intro k hk hn; rw [get_addNames h.1, if_neg hn, if_pos hk]

/-- **C252**: sequences of other types are refused. -/
theorem C252_refused (pick : List String → String) (s : St α β γ) (d : List (String × Val α)) (hd : Clean d) (k : String) (hk : (k, .other) ∈ d) :
    s.addData pick d = .throws := by
  have key : ∀ (ks : List String) (d₀ : List (String × Val α)), ks.Nodup → (∀ x ∈ ks, x ∈ keys d) → (∀ x ∈ ks, fnd d₀ x = fnd d x) → k ∈ ks →
      expand d₀ ks = .throws := by
    intro ks
    induction ks with
    | nil => intro _ _ _ _ h; simp at h
    | cons x ks ih =>
      intro d₀ hn hx hf hkk
      have hn' := List.nodup_cons.1 hn
      rw [expand]
      rcases hv : fnd d x with _ | v
      · exact absurd (hx x (by simp)) ((fnd_none d x).1 hv)
      · have hdx : fnd d₀ x = some v := by rw [hf x (by simp), hv]
        have hmem := (fnd_mem hd.nodup).1 hv
        have hne : v ≠ .other → k ∈ ks := by
          intro hne
          rcases List.mem_cons.1 hkk with h | h
          · subst h
            have := (fnd_mem hd.nodup).2 hk
            rw [hv] at this; cases this; exact absurd rfl hne
          · exact h
        rcases v with v | l | _
        · rw [expandOne_num d₀ x v hdx, Res.bind_ok]
          exact ih d₀ hn'.2 (fun y h => hx y (by simp [h])) (fun y h => hf y (by simp [h])) (hne (by simp))
        · obtain ⟨d1, f1, _, _, f4⟩ := expandOne_comps d₀ x l hdx (hd.suffix x l hmem)
          rw [f1, Res.bind_ok]
          refine ih d1 hn'.2 (fun y h => hx y (by simp [h])) (fun y h => ?_) (hne (by simp))
          rw [f4 y (fun e => hn'.1 (e ▸ h)) (fun c hc e => hd.fresh x l hmem c hc (e ▸ hx y (by simp [h])))]
          exact hf y (by simp [h])
        · rw [expandOne_other d₀ x hdx]; rfl
  rw [St.addData, key (keys d) d hd.nodup (fun _ h => h) (fun _ _ => rfl) (List.mem_map.2 ⟨_, hk, rfl⟩)]; rfl

/-- **C252**: each component of a vector has a column of its own, and there is no column with the name of the vector. -/
theorem C252_components_partial (pick : List String → String) (hp : Picks pick) (s : St α β γ) (n : ℕ) (h : Rect s.data n) (h0 : s.data = [] → n = 0)
    (hi : s.img = [] ∨ 0 < n) (d : List (String × Val α)) (hd : Clean d) (ho : ∀ k, (k, .other) ∉ d) (k : String) (l : List (String × Option α))
    (hk : (k, .comps l) ∈ d) : ∃ s', s.addData pick d = .ok s' ∧ (∀ c v, (c, v) ∈ l → (get s'.data (k ++ "_" ++ c))[n]? = some v) ∧
      (k ∈ keys s'.data → k ∈ keys s.data) := by
  obtain ⟨s', e1, _, _, _, _, e2, _, _, e3, _⟩ := C248_row pick hp s n h h0 hi d hd ho
  refine ⟨s', e1, fun c v hcv => e3 _ v (.inr ⟨k, l, c, hk, hcv, rfl⟩), fun hks => ((e2 k).1 hks).resolve_right ?_⟩
  rintro ⟨v, hv | ⟨k', l', c, h1, h2, h3⟩⟩
  · have h1 := (fnd_mem hd.nodup).2 hv
    have h2 := (fnd_mem hd.nodup).2 hk
    rw [h1] at h2; cases h2
  · exact hd.fresh k' l' h1 c (List.mem_map.2 ⟨_, h2, rfl⟩) (by
      show k' ++ "_" ++ c ∈ keys d
      rw [← h3]; exact List.mem_map.2 ⟨_, hk, rfl⟩)

/-- A number given under the name of a component is lost. -/
theorem C252_violated (pick : List String → String) (hp : Picks pick) (a b : ℝ) :
    ∃ s' : St ℝ String Unit, (St.empty : St ℝ String Unit).addData pick [("p_x", .num (some a)), ("p", .comps [("x", some b)])] = .ok s' ∧
      get s'.data "p_x" = [some b] := by
  refine ⟨_, rfl, ?_⟩
  simp [St.addRow, St.samples, St.empty, firstLen, put, keys, addNames, mapVals, get, look]

/-- Beside C248: numbers, a vector, then nothing, as splitData does. -/
example : Clean (α := ℝ) [("t", .num (some 1)), ("p", .comps [("x", some 2), ("y", none)])] := by
  refine ⟨by simp [keys], ?_, ?_, ?_⟩
  · rintro k l h; simp at h; obtain ⟨rfl, rfl⟩ := h; simp
  · rintro k l h; simp at h; obtain ⟨rfl, rfl⟩ := h; simp [keys, comp]
  · rintro k l k' l' h h'; simp at h h'; obtain ⟨rfl, rfl⟩ := h; obtain ⟨rfl, rfl⟩ := h'; simp

/-- **C250**: resetData removes all columns, reset removes plots as well. -/
theorem C250_reset_partial (s : St α β γ) : s.reset.data = [] ∧ s.reset.plots = [] ∧ s.resetData.data = [] ∧ s.resetData.plots = s.plots ∧
    s.resetData.labels = s.labels := ⟨rfl, rfl, rfl, rfl, rfl⟩

/-- Labels stay after reset, and so do images. -/
theorem C250_violated (s : St α β γ) : s.reset.labels = s.labels ∧ s.reset.img = s.img ∧ s.resetData.img = s.img := ⟨rfl, rfl, rfl⟩

/-- Images from before a reset: the first row comes after as many rows without numbers as there were images. -/
theorem C250_violated_stale (pick : List String → String) (hp : Picks pick) (s : St α β γ) (m : ℕ) (hm : Rect s.img m) (hi : s.img ≠ []) (k : String) (v : Option α) :
    ∃ s', s.reset.addData pick [(k, .num v)] = .ok s' ∧ get s'.data k = List.replicate m none ++ [v] := by
  have h1 : expand [(k, Val.num v)] [k] = .ok [(k, Val.num v)] := by simp [expand, expandOne]
  have h2 : s.reset.samples pick = m := by
    unfold St.samples; dsimp only
    have a : firstLen pick s.reset.data = 0 := by simp [St.reset, firstLen]
    have b : firstLen pick s.reset.img = m := firstLen_rect hp hm hi
    rw [a, b, if_pos ⟨hi, rfl⟩]; simp
  refine ⟨s.reset.addRow pick [(k, .num v)], by rw [St.addData]; show Res.bind (expand [(k, Val.num v)] [k]) _ = _; rw [h1, Res.bind_ok], ?_⟩
  unfold St.addRow
  rw [h2]
  simp [St.reset, keys, addNames, mapVals, get, look]

/-- **C251**: reversed data have the same names; rows stay together, the last one becomes the first one. -/
theorem C251_rows_partial (s : St α β γ) (n : ℕ) (h : Rect s.data n) : Rect s.reverse.data n ∧ keys s.reverse.data = keys s.data ∧
    ∀ k ∈ keys s.data, ∀ i < n, (get s.reverse.data k)[i]? = (get s.data k)[n - 1 - i]? := by
  refine ⟨rect_reverse s h, by rw [reverse_data, keys_mapVals], fun k hk i hi => ?_⟩
  rw [reverse_data, get_mapVals _ h.1 hk, List.getElem?_reverse (by rw [get_len h hk]; exact hi), get_len h hk]

/-- Reversed twice, data are what they were. -/
theorem C251_twice (s : St α β γ) : s.reverse.reverse = s := by
  unfold St.reverse mapVals
  simp [Function.comp_def]

/-- Images are not reversed: the first row gets the image of another one. -/
theorem C251_violated : ∃ s : St ℝ String Unit, Rect s.data 2 ∧ Rect s.img 2 ∧ (get s.data "t")[0]? = some (some 1) ∧ (get s.img "v")[0]? = some (some "1.png") ∧
    (get s.reverse.data "t")[1]? = some (some 1) ∧ (get s.reverse.img "v")[1]? = some (some "2.png") :=
  ⟨⟨[("t", [some 1, some 2])], [("v", [some "1.png", some "2.png"])], [], []⟩, ⟨by simp [keys], by simp⟩, ⟨by simp [keys], by simp⟩,
    by simp [get], by simp [get], by simp [get, St.reverse, mapVals], by simp [get, St.reverse]⟩

/-- Beside C250 and C251: a state with rows and images. -/
example : Rect [("t", [some (1 : ℝ), some 2]), ("u", [none, some 5])] 2 := ⟨by simp [keys], by simp⟩

end Verif.Plot
