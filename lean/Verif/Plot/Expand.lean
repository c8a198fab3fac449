import Verif.Plot.Lemmas

/-! # Components of vectors -/
namespace Verif.Plot

variable {α δ : Type}

/-- What is under a name. -/
def fnd (d : List (String × δ)) (x : String) : Option δ := (d.find? fun e => e.1 = x).map Prod.snd

theorem fnd_cons (e : String × δ) (d : List (String × δ)) (x : String) : fnd (e :: d) x = if e.1 = x then some e.2 else fnd d x := by
  unfold fnd
  by_cases h : e.1 = x
  · rw [List.find?_cons_of_pos (by simpa using h), if_pos h]; rfl
  · rw [List.find?_cons_of_neg (by simpa using h), if_neg h]

theorem fnd_none (d : List (String × δ)) (x : String) : fnd d x = none ↔ x ∉ keys d := by
  rw [← find_mem]; unfold fnd; simp

theorem fnd_append (d d' : List (String × δ)) (x : String) : fnd (d ++ d') x = (fnd d x).or (fnd d' x) := by
  induction d with
  | nil => rfl
  | cons e d ih =>
    rw [List.cons_append, fnd_cons, fnd_cons, ih]
    split_ifs <;> simp

theorem fnd_map (k : String) (v : δ) : ∀ (d : List (String × δ)) (x : String),
    fnd (d.map fun e => if e.1 = k then (k, v) else e) x = if x = k ∧ k ∈ keys d then some v else fnd d x
  | [], x => by simp [fnd, keys]
  | e :: d, x => by
    rw [List.map_cons, fnd_cons, fnd_cons, fnd_map k v d x]
    by_cases h1 : e.1 = k
    · by_cases h2 : x = k
      · subst h2; simp [h1, keys]
      · have : ¬ k = x := fun h => h2 h.symm
        have h3 : ¬ e.1 = x := fun h => h2 (h ▸ h1)
        simp [h1, h2, this]
    · by_cases h2 : e.1 = x
      · have : ¬ x = k := fun h => h1 (h2.trans h)
        simp [h1, h2, this]
      · have : k ∈ keys (e :: d) ↔ k ∈ keys d := by
          simp only [keys, List.map_cons, List.mem_cons]
          exact ⟨fun h => h.resolve_left fun h => h1 h.symm, .inr⟩
        simp only [h1, h2, if_false, this]

theorem fnd_put (d : List (String × δ)) (k : String) (v : δ) (x : String) : fnd (put d k v) x = if x = k then some v else fnd d x := by
  unfold put
  split_ifs with h h2 h2
  · rw [fnd_map]; simp [h, h2]
  · rw [fnd_map]; simp [h2]
  · rw [fnd_append, h2, (fnd_none d k).2 h, fnd_cons]; simp
  · rw [fnd_append, fnd_cons]
    have : ¬ k = x := fun e => h2 e.symm
    simp [this, fnd]

theorem fnd_filter (k : String) : ∀ (d : List (String × δ)) (x : String),
    fnd (d.filter fun e => e.1 ≠ k) x = if x = k then none else fnd d x
  | [], x => by simp [fnd]
  | e :: d, x => by
    have ih := fnd_filter k d x
    by_cases h : e.1 = k
    · rw [List.filter_cons_of_neg (by simpa using h), ih, fnd_cons]
      split_ifs with h1 h2
      · rfl
      · exact absurd (h2.symm.trans h) h1
      · rfl
    · rw [List.filter_cons_of_pos (by simpa using h), fnd_cons, ih, fnd_cons]
      split_ifs with h1 h2
      · exact absurd (h1.trans h2) h
      · rfl
      · rfl
      · rfl

/-- The name of a component. -/
def comp (k c : String) : String := k ++ "_" ++ c

theorem comp_inj {k c c' : String} (h : comp k c = comp k c') : c = c' := by
  unfold comp at h
  have h' := congrArg String.toList h
  simp only [String.toList_append] at h'
  exact String.toList_inj.1 (List.append_cancel_left h')

theorem comp_ne (k c : String) : comp k c ≠ k := by
  intro h
  have h' := congrArg (fun s => s.toList.length) h
  simp only [comp, String.toList_append, List.length_append] at h'
  have : ("_" : String).toList.length = 1 := rfl
  omega

/-- The components added one by one. -/
theorem fnd_fold (k : String) : ∀ (l : List (String × Option α)) (d : List (String × Val α)), (l.map Prod.fst).Nodup →
    (∀ c v, (c, v) ∈ l → fnd (l.foldl (fun d c => put d (k ++ "_" ++ c.1) (.num c.2)) d) (comp k c) = some (.num v)) ∧
    ∀ x, (∀ c v, (c, v) ∈ l → x ≠ comp k c) → fnd (l.foldl (fun d c => put d (k ++ "_" ++ c.1) (.num c.2)) d) x = fnd d x
  | [], d, _ => by simp
  | (c₀, v₀) :: l, d, hn => by
    have hn' : c₀ ∉ l.map Prod.fst ∧ (l.map Prod.fst).Nodup := by simpa only [List.map_cons, List.nodup_cons] using hn
    obtain ⟨h1, h2⟩ := fnd_fold k l (put d (k ++ "_" ++ c₀) (.num v₀)) hn'.2
    rw [List.foldl_cons]
    constructor
    · intro c v hcv
      rcases List.mem_cons.1 hcv with h | h
      · cases h
        rw [h2 (comp k c₀) (fun c' v' h' e => hn'.1 (by rw [comp_inj e]; exact List.mem_map.2 ⟨_, h', rfl⟩)), fnd_put]
        simp [comp]
      · exact h1 c v h
    · intro x hx
      rw [h2 x fun c v h => hx c v (List.mem_cons_of_mem _ h), fnd_put]
      have : ¬ x = k ++ "_" ++ c₀ := hx c₀ v₀ (by simp)
      rw [if_neg this]

/-- Names that do not get in the way of one another: names given are distinct, components of one vector have distinct names, which are no names given
and differ between vectors. -/
structure Clean (d : List (String × Val α)) : Prop where
  nodup : (keys d).Nodup
  suffix : ∀ k l, (k, .comps l) ∈ d → (l.map Prod.fst).Nodup
  fresh : ∀ k l, (k, .comps l) ∈ d → ∀ c ∈ l.map Prod.fst, comp k c ∉ keys d
  apart : ∀ k l k' l', (k, .comps l) ∈ d → (k', .comps l') ∈ d → ∀ c ∈ l.map Prod.fst, ∀ c' ∈ l'.map Prod.fst, comp k c = comp k' c' → k = k'

theorem fnd_mem {d : List (String × δ)} (hn : (keys d).Nodup) {k : String} {v : δ} : fnd d k = some v ↔ (k, v) ∈ d := by
  constructor
  · intro h
    unfold fnd at h
    obtain ⟨e, he, hv⟩ := Option.map_eq_some_iff.1 h
    have h1 := List.mem_of_find?_eq_some he
    have h2 := List.find?_some he
    have h2 : e.1 = k := by simpa using h2
    rw [← h2, ← hv]; exact h1
  · intro h
    unfold fnd; rw [find_nodup d (k, v) hn h]; rfl

/-- One name replaced by components. -/
theorem expandOne_comps (d : List (String × Val α)) (k : String) (l : List (String × Option α)) (h : fnd d k = some (.comps l))
    (hl : (l.map Prod.fst).Nodup) : ∃ d', expandOne d k = .ok d' ∧ fnd d' k = none ∧ (∀ c v, (c, v) ∈ l → fnd d' (comp k c) = some (.num v)) ∧
      ∀ x, x ≠ k → (∀ c ∈ l.map Prod.fst, x ≠ comp k c) → fnd d' x = fnd d x := by
  have hd : expandOne d k = .ok ((l.foldl (fun d c => put d (k ++ "_" ++ c.1) (.num c.2)) d).filter fun e => e.1 ≠ k) := by
    unfold expandOne; unfold fnd at h; rw [h]
  obtain ⟨h1, h2⟩ := fnd_fold k l d hl
  refine ⟨_, hd, ?_, ?_, ?_⟩
  · rw [fnd_filter, if_pos rfl]
  · intro c v hcv; rw [fnd_filter, if_neg (comp_ne k c), h1 c v hcv]
  · intro x hx hc
    rw [fnd_filter, if_neg hx, h2 x fun c v hcv => hc c (List.mem_map.2 ⟨_, hcv, rfl⟩)]

theorem expandOne_num (d : List (String × Val α)) (k : String) (v : Option α) (h : fnd d k = some (.num v)) : expandOne d k = .ok d := by
  unfold expandOne; unfold fnd at h; rw [h]

theorem expandOne_other (d : List (String × Val α)) (k : String) (h : fnd d k = some .other) : expandOne d k = .throws := by
  unfold expandOne; unfold fnd at h; rw [h]

/-- All names replaced. -/
theorem expand_spec {D : List (String × Val α)} (hD : Clean D) : ∀ (ks : List String) (d : List (String × Val α)), ks.Nodup → (∀ k ∈ ks, k ∈ keys D) →
    (∀ k ∈ ks, fnd d k = fnd D k) → (∀ k ∈ ks, (k, .other) ∉ D) →
    ∃ d', expand d ks = .ok d' ∧ (∀ k ∈ ks, ∀ l, (k, .comps l) ∈ D → fnd d' k = none) ∧
      (∀ k ∈ ks, ∀ l, (k, .comps l) ∈ D → ∀ c v, (c, v) ∈ l → fnd d' (comp k c) = some (.num v)) ∧
      (∀ x, (∀ k ∈ ks, ∀ l, (k, .comps l) ∈ D → x ≠ k ∧ ∀ c ∈ l.map Prod.fst, x ≠ comp k c) → fnd d' x = fnd d x)
  | [], d, _, _, _, _ => ⟨d, rfl, by simp, by simp, by simp⟩
  | k :: ks, d, hn, hk, hd, ho => by
    have hn' := List.nodup_cons.1 hn
    have hkD := hk k (by simp)
    rcases hv : fnd D k with _ | v
    · exact absurd hkD ((fnd_none D k).1 hv)
    · have hmem := (fnd_mem hD.nodup).1 hv
      have hdk : fnd d k = some v := by rw [hd k (by simp), hv]
      rcases v with v | l | _
      · obtain ⟨d', e1, e2, e3, e4⟩ := expand_spec hD ks d hn'.2 (fun x h => hk x (by simp [h])) (fun x h => hd x (by simp [h])) (fun x h => ho x (by simp [h]))
        have hno : ∀ l, (k, Val.comps l) ∉ D := fun l h => by
          have := (fnd_mem hD.nodup).2 h; rw [hv] at this; cases this
        refine ⟨d', by rw [expand, expandOne_num d k v hdk, Res.bind_ok, e1], ?_, ?_, ?_⟩
        · intro x hx l hl
          rcases List.mem_cons.1 hx with h | h
          · subst h; exact absurd hl (hno l)
          · exact e2 x h l hl
        · intro x hx l hl
          rcases List.mem_cons.1 hx with h | h
          · subst h; exact absurd hl (hno l)
          · exact e3 x h l hl
        · intro x hx; exact e4 x fun k' h => hx k' (by simp [h])
      · obtain ⟨d1, f1, f2, f3, f4⟩ := expandOne_comps d k l hdk (hD.suffix k l hmem)
        have hfr : ∀ x ∈ ks, fnd d1 x = fnd D x := by
          intro x hx
          rw [f4 x (fun h => hn'.1 (h ▸ hx)) (fun c hc h => hD.fresh k l hmem c hc (h ▸ hk x (by simp [hx])))]
          exact hd x (by simp [hx])
        obtain ⟨d', e1, e2, e3, e4⟩ := expand_spec hD ks d1 hn'.2 (fun x h => hk x (by simp [h])) hfr (fun x h => ho x (by simp [h]))
        have huniq : ∀ l', (k, Val.comps l') ∈ D → l' = l := fun l' h => by
          have := (fnd_mem hD.nodup).2 h; rw [hv] at this; cases this; rfl
        refine ⟨d', by rw [expand, f1, Res.bind_ok, e1], ?_, ?_, ?_⟩
        · intro x hx l' hl'
          rcases List.mem_cons.1 hx with h | h
          · subst h
            rw [e4 x ?_, f2]
            intro k' hk' l'' hl''
            exact ⟨fun h => hn'.1 (h ▸ hk'), fun c hc h => hD.fresh k' l'' hl'' c hc (h ▸ hkD)⟩
          · exact e2 x h l' hl'
        · intro x hx l' hl' c v hcv
          rcases List.mem_cons.1 hx with h | h
          · subst h
            rw [huniq l' hl'] at hcv
            have hc : c ∈ l.map Prod.fst := List.mem_map.2 ⟨_, hcv, rfl⟩
            rw [e4 (comp x c) ?_, f3 c v hcv]
            intro k' hk' l'' hl''
            refine ⟨fun h => hD.fresh x l hmem c hc (h ▸ hk k' (by simp [hk'])), fun c' hc' h => ?_⟩
            have := hD.apart x l k' l'' hmem hl'' c hc c' hc' h
            exact hn'.1 (this ▸ hk')
          · exact e3 x h l' hl' c v hcv
        · intro x hx
          rw [e4 x fun k' h => hx k' (by simp [h])]
          have := hx k (by simp) l hmem
          exact f4 x this.1 this.2
      · exact absurd hmem (ho k (by simp))

end Verif.Plot
