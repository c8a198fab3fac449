import Verif.Tree.Lemmas

/-! Every step keeps the invariant of the recursive bisection. -/

namespace Verif.Tree

variable {α : Type}

theorem set_lt {pc : Nat → Nat} {r t x : Nat} (h : x = r → pc r ≠ t) :
    t < set pc r (pc r + 1) x ↔ t < pc x := by
  unfold set
  split
  · rename_i e; subst e; have := h rfl; omega
  · rfl

theorem set_le {pc : Nat → Nat} {r t x : Nat} (h : x = r → pc r ≠ t) :
    set pc r (pc r + 1) x ≤ t ↔ pc x ≤ t := by
  unfold set
  split
  · rename_i e; subst e; have := h rfl; omega
  · rfl

theorem set_self (f : Nat → β) (r : Nat) (v : β) : set f r v r = v := by simp [set]

theorem set_ne (f : Nat → β) {r x : Nat} (v : β) (h : x ≠ r) : set f r v x = f x := by
  simp [set, h]

theorem set2_self (f : Nat → Nat → β) (a b : Nat) (v : β) : set2 f a b v a b = v := by
  simp [set2]

theorem set2_ne (f : Nat → Nat → β) {a b x y : Nat} (v : β) (h : ¬ (x = a ∧ y = b)) :
    set2 f a b v x y = f x y := by
  simp [set2, h]

/-- A worker determines its level and partner when it sends downwards. -/
theorem pair_level {l l' m m' : Nat} (h : m + 2 ^ l = m' + 2 ^ l') (hm : m = m') : l = l' := by
  subst hm
  exact pow_inj (by omega)

/-- A worker receives from one partner only. -/
theorem pair_recv {c : Cfg α} {l l' m m' : Nat} (h1 : Pair c l m) (h2 : Pair c l' m')
    (h : m + 2 ^ l = m' + 2 ^ l') : l = l' ∧ m = m' := by
  obtain ⟨_, a1, a2, _⟩ := h1
  obtain ⟨_, b1, b2, _⟩ := h2
  have key : l = l' := by
    rcases Nat.lt_trichotomy l l' with hl | hl | hl
    · have : 2 ^ (l + 1) ≤ 2 ^ l' := Nat.pow_le_pow_right (by decide) hl
      rw [pow_s] at this; omega
    · exact hl
    · have : 2 ^ (l' + 1) ≤ 2 ^ l := Nat.pow_le_pow_right (by decide) hl
      rw [pow_s] at this; omega
  subst key
  exact ⟨rfl, by omega⟩

/-- The two directions never use the same queue. -/
theorem pair_dir {c : Cfg α} {l l' m m' : Nat} (_h1 : Pair c l m) (_h2 : Pair c l' m') :
    ¬ (m = m' + 2 ^ l' ∧ m + 2 ^ l = m') := by
  have := pow_pos l; have := pow_pos l'
  omega

theorem set_data {c : Cfg α} {items : List α} {s : St α} (hi : Inv c items s) {r : Nat} {v : List α}
    (hv : v = D c items (s.pc r + 1) r) (x : Nat) (hx : 1 ≤ x) (hx' : x ≤ c.n) :
    set s.data r v x = D c items (set s.pc r (s.pc r + 1) x) x := by
  by_cases h : x = r
  · subst h; rw [set_self, set_self, hv]
  · rw [set_ne _ _ h, set_ne _ _ h]; exact hi.data x hx hx'

theorem set_len {c : Cfg α} {items : List α} {s : St α} (hi : Inv c items s) {r : Nat}
    (hr : s.pc r < progLen c.levels) (x : Nat) :
    set s.pc r (s.pc r + 1) x ≤ progLen c.levels := by
  by_cases h : x = r
  · subst h; rw [set_self]; exact hr
  · rw [set_ne _ _ h]; exact hi.len x

/-- A step which uses no queue. -/
theorem inv_local {c : Cfg α} {items : List α} {s : St α} (hi : Inv c items s) {r : Nat}
    (hr : s.pc r < progLen c.levels) {v : List α} (hv : v = D c items (s.pc r + 1) r)
    (h1 : ∀ l m, Pair c l m → m = r → s.pc r ≠ 2 * l + 1 ∧ s.pc r ≠ gsp c l + 1)
    (h2 : ∀ l m, Pair c l m → m + 2 ^ l = r → s.pc r ≠ 2 * l ∧ s.pc r ≠ gsp c l) :
    Inv c items { s with pc := set s.pc r (s.pc r + 1), data := set s.data r v } where
  data := set_data hi hv
  len := set_len hi hr
  sord := by
    intro l m hp
    show _ < set s.pc r (s.pc r + 1) (m + 2 ^ l) → _ < set s.pc r (s.pc r + 1) m
    rw [set_lt (fun e => (h2 l m hp e).1), set_lt (fun e => (h1 l m hp e).1)]
    exact hi.sord l m hp
  sch := by
    intro l m hp
    show s.chan _ _ = if _ < set s.pc r (s.pc r + 1) m ∧ set s.pc r (s.pc r + 1) (m + 2 ^ l) ≤ _
      then _ else _
    simp only [set_le (fun e => (h2 l m hp e).1), set_lt (fun e => (h1 l m hp e).1)]
    exact hi.sch l m hp
  gord := by
    intro l m hp
    show _ < set s.pc r (s.pc r + 1) m → _ < set s.pc r (s.pc r + 1) (m + 2 ^ l)
    rw [set_lt (fun e => (h2 l m hp e).2), set_lt (fun e => (h1 l m hp e).2)]
    exact hi.gord l m hp
  gch := by
    intro l m hp
    show s.chan _ _ = if _ < set s.pc r (s.pc r + 1) (m + 2 ^ l) ∧ set s.pc r (s.pc r + 1) m ≤ _
      then _ else _
    simp only [set_lt (fun e => (h2 l m hp e).2), set_le (fun e => (h1 l m hp e).2)]
    exact hi.gch l m hp
  other := hi.other

/-- The receive of the scattering. -/
theorem inv_sr {c : Cfg α} {items : List α} {s : St α} (hi : Inv c items s) {l0 m0 : Nat}
    (hp0 : Pair c l0 m0) (hpc : s.pc (m0 + 2 ^ l0) = 2 * l0) {m : List α} {ms : List (List α)}
    (hch : s.chan m0 (m0 + 2 ^ l0) = m :: ms) :
    Inv c items { s with
      pc := set s.pc (m0 + 2 ^ l0) (s.pc (m0 + 2 ^ l0) + 1),
      data := set s.data (m0 + 2 ^ l0) m,
      chan := set2 s.chan m0 (m0 + 2 ^ l0) ms } := by
  have hs := hi.sch l0 m0 hp0
  rw [hch] at hs
  split at hs
  case isFalse => cases hs
  rename_i hcond
  obtain ⟨hm, hms⟩ := List.cons.inj hs
  subst hm; subst hms
  have hl0 := hp0.1
  have hlen : s.pc (m0 + 2 ^ l0) < progLen c.levels := by unfold progLen; omega
  have hne : ∀ l m, Pair c l m → m = m0 + 2 ^ l0 → s.pc (m0 + 2 ^ l0) ≠ 2 * l + 1 ∧
      s.pc (m0 + 2 ^ l0) ≠ gsp c l + 1 := by
    intro l m _ _; unfold gsp; omega
  have hne2 : ∀ l m, Pair c l m → m + 2 ^ l = m0 + 2 ^ l0 → s.pc (m0 + 2 ^ l0) ≠ gsp c l := by
    intro l m hp e; unfold gsp; omega
  refine ⟨set_data hi ?_, set_len hi hlen, ?_, ?_, ?_, ?_, ?_⟩
  · rw [hpc, D_odd hl0]; unfold A
    obtain ⟨_, a, b, _⟩ := hp0
    rw [if_pos (by omega)]; congr 3; omega
  · intro l m hp
    show _ < set s.pc _ _ (m + 2 ^ l) → _ < set s.pc _ _ m
    rw [set_lt (fun e => (hne l m hp e).1)]
    by_cases h : l = l0 ∧ m = m0
    · obtain ⟨h, h'⟩ := h; subst h; subst h'
      intro _; exact hcond.1
    · rw [set_lt]; exact hi.sord l m hp
      intro e; have := pair_recv hp hp0 e; exact absurd this h
  · intro l m hp
    show set2 s.chan _ _ _ _ _ = if _ < set s.pc _ _ m ∧ set s.pc _ _ (m + 2 ^ l) ≤ _ then _ else _
    by_cases h : l = l0 ∧ m = m0
    · obtain ⟨h, h'⟩ := h; subst h; subst h'
      rw [set2_self, if_neg]
      rw [set_self]; omega
    · have h' : ¬ (m = m0 ∧ m + 2 ^ l = m0 + 2 ^ l0) := by
        rintro ⟨e1, e2⟩; exact h ⟨pair_level e2 e1, e1⟩
      rw [set2_ne _ _ h', hi.sch l m hp]
      simp only [set_lt (t := 2 * l + 1) (x := m) (fun e => (hne l m hp e).1)]
      simp only [set_le (fun e => absurd (pair_recv hp hp0 e) h)]
  · intro l m hp
    show _ < set s.pc _ _ m → _ < set s.pc _ _ (m + 2 ^ l)
    rw [set_lt (fun e => (hne l m hp e).2), set_lt (fun e => hne2 l m hp e)]
    exact hi.gord l m hp
  · intro l m hp
    show set2 s.chan _ _ _ _ _ = if _ < set s.pc _ _ (m + 2 ^ l) ∧ set s.pc _ _ m ≤ _ then _ else _
    have h' : ¬ (m + 2 ^ l = m0 ∧ m = m0 + 2 ^ l0) := by
      have := pow_pos l; have := pow_pos l0; omega
    rw [set2_ne _ _ h', hi.gch l m hp]
    simp only [set_lt (fun e => hne2 l m hp e), set_le (fun e => (hne l m hp e).2)]
  · intro a b hab
    by_cases h : a = m0 ∧ b = m0 + 2 ^ l0
    · exact ⟨l0, m0, hp0, Or.inl h⟩
    · refine hi.other a b ?_
      intro e; apply hab
      show set2 s.chan _ _ _ _ _ = _
      rw [set2_ne _ _ h, e]

/-- The send of the scattering. -/
theorem inv_ss {c : Cfg α} {items : List α} {s : St α} (hi : Inv c items s) {l0 m0 : Nat}
    (hp0 : Pair c l0 m0) (hpc : s.pc m0 = 2 * l0 + 1) (hn : m0 ≤ c.n) :
    Inv c items { s with
      pc := set s.pc m0 (s.pc m0 + 1),
      data := set s.data m0 (halves c (s.data m0) l0).1,
      chan := set2 s.chan m0 (m0 + 2 ^ l0)
        (s.chan m0 (m0 + 2 ^ l0) ++ [(halves c (s.data m0) l0).2]) } := by
  have hl0 := hp0.1
  have hd : s.data m0 = V c items l0 m0 := by
    rw [hi.data m0 hp0.2.1 hn, hpc, D_odd hl0]
    unfold A; rw [if_neg]
    have := hp0.2.2.1; omega
  rw [hd]
  have hnotsent : s.pc (m0 + 2 ^ l0) ≤ 2 * l0 := by
    by_contra h
    have := hi.sord l0 m0 hp0 (by omega)
    omega
  have hemp : s.chan m0 (m0 + 2 ^ l0) = [] := by
    rw [hi.sch l0 m0 hp0, if_neg (by omega)]
  have hlen : s.pc m0 < progLen c.levels := by unfold progLen; omega
  have hne : ∀ l m, Pair c l m → m + 2 ^ l = m0 → s.pc m0 ≠ 2 * l ∧ s.pc m0 ≠ gsp c l := by
    intro l m _ _; unfold gsp; omega
  have hne2 : ∀ l m, Pair c l m → m = m0 → s.pc m0 ≠ gsp c l + 1 := by
    intro l m _ _; unfold gsp; omega
  refine ⟨set_data hi ?_, set_len hi hlen, ?_, ?_, ?_, ?_, ?_⟩
  · rw [hpc, show 2 * l0 + 1 + 1 = 2 * (l0 + 1) by omega, D_even (by omega)]
    show _ = if m0 ≤ 2 ^ l0 then _ else _
    rw [if_pos hp0.2.2.1, if_pos hp0.2.2.2]
  · intro l m hp
    show _ < set s.pc _ _ (m + 2 ^ l) → _ < set s.pc _ _ m
    rw [set_lt (fun e => (hne l m hp e).1)]
    intro h
    have := hi.sord l m hp h
    unfold set; split
    · rename_i e; subst e; omega
    · exact this
  · intro l m hp
    show set2 s.chan _ _ _ _ _ = if _ < set s.pc _ _ m ∧ set s.pc _ _ (m + 2 ^ l) ≤ _ then _ else _
    by_cases h : l = l0 ∧ m = m0
    · obtain ⟨h, h'⟩ := h; subst h; subst h'
      rw [set2_self, hemp, if_pos]
      · rfl
      · rw [set_self, set_le (fun e => (hne l m hp e).1)]; omega
    · have h' : ¬ (m = m0 ∧ m + 2 ^ l = m0 + 2 ^ l0) := by
        rintro ⟨e1, e2⟩; exact h ⟨pair_level e2 e1, e1⟩
      rw [set2_ne _ _ h', hi.sch l m hp]
      simp only [set_le (t := 2 * l) (x := m + 2 ^ l) (fun e => (hne l m hp e).1)]
      simp only [set_lt (t := 2 * l + 1) (x := m) (r := m0) (pc := s.pc)
        (fun e e' => h ⟨by omega, e⟩)]
  · intro l m hp
    show _ < set s.pc _ _ m → _ < set s.pc _ _ (m + 2 ^ l)
    rw [set_lt (fun e => hne2 l m hp e), set_lt (fun e => (hne l m hp e).2)]
    exact hi.gord l m hp
  · intro l m hp
    show set2 s.chan _ _ _ _ _ = if _ < set s.pc _ _ (m + 2 ^ l) ∧ set s.pc _ _ m ≤ _ then _ else _
    have h' : ¬ (m + 2 ^ l = m0 ∧ m = m0 + 2 ^ l0) := by
      have := pow_pos l; have := pow_pos l0; omega
    rw [set2_ne _ _ h', hi.gch l m hp]
    simp only [set_lt (fun e => (hne l m hp e).2), set_le (fun e => hne2 l m hp e)]
  · intro a b hab
    by_cases h : a = m0 ∧ b = m0 + 2 ^ l0
    · exact ⟨l0, m0, hp0, Or.inl h⟩
    · refine hi.other a b ?_
      intro e; apply hab
      show set2 s.chan _ _ _ _ _ = _
      rw [set2_ne _ _ h, e]

/-- The send of the gathering. -/
theorem inv_gs {c : Cfg α} {items : List α} {s : St α} (hi : Inv c items s) {l0 m0 : Nat}
    (hp0 : Pair c l0 m0) (hpc : s.pc (m0 + 2 ^ l0) = gsp c l0) :
    Inv c items { s with
      pc := set s.pc (m0 + 2 ^ l0) (s.pc (m0 + 2 ^ l0) + 1),
      chan := set2 s.chan (m0 + 2 ^ l0) m0
        (s.chan (m0 + 2 ^ l0) m0 ++ [s.data (m0 + 2 ^ l0)]) } := by
  have hl0 := hp0.1
  have h1n : 1 ≤ m0 + 2 ^ l0 := by have := pow_pos l0; omega
  have hd : s.data (m0 + 2 ^ l0) = G c items (c.levels - 1 - l0) (m0 + 2 ^ l0) := by
    rw [hi.data _ h1n hp0.2.2.2, hpc]; unfold gsp; rw [D_g]
  have hnot : s.pc m0 ≤ gsp c l0 + 1 := by
    by_contra h
    have := hi.gord l0 m0 hp0 (by omega)
    omega
  have hemp : s.chan (m0 + 2 ^ l0) m0 = [] := by
    rw [hi.gch l0 m0 hp0, if_neg (by omega)]
  have hlen : s.pc (m0 + 2 ^ l0) < progLen c.levels := by rw [hpc]; unfold progLen gsp; omega
  have hne : ∀ l m, Pair c l m → m = m0 + 2 ^ l0 → s.pc (m0 + 2 ^ l0) ≠ 2 * l + 1 ∧
      s.pc (m0 + 2 ^ l0) ≠ gsp c l + 1 := by
    intro l m hp _; have := hp.1; rw [hpc]; unfold gsp; omega
  have hne2 : ∀ l m, Pair c l m → m + 2 ^ l = m0 + 2 ^ l0 → s.pc (m0 + 2 ^ l0) ≠ 2 * l := by
    intro l m hp e; have := hp.1; rw [hpc]; unfold gsp; omega
  refine ⟨?_, set_len hi hlen, ?_, ?_, ?_, ?_, ?_⟩
  · have := set_data (v := s.data (m0 + 2 ^ l0)) hi (r := m0 + 2 ^ l0) ?_
    · intro x hx hx'
      rw [← this x hx hx']
      unfold set; split
      · rename_i e; rw [e]
      · rfl
    · rw [hd, hpc]; unfold gsp
      rw [show ∀ a, a + 1 + 2 * (c.levels - 1 - l0) + 1 = a + 2 + 2 * (c.levels - 1 - l0) by
        intro a; omega, D_g']
  · intro l m hp
    show _ < set s.pc _ _ (m + 2 ^ l) → _ < set s.pc _ _ m
    rw [set_lt (fun e => (hne l m hp e).1), set_lt (fun e => hne2 l m hp e)]
    exact hi.sord l m hp
  · intro l m hp
    show set2 s.chan _ _ _ _ _ = if _ < set s.pc _ _ m ∧ set s.pc _ _ (m + 2 ^ l) ≤ _ then _ else _
    have h' : ¬ (m = m0 + 2 ^ l0 ∧ m + 2 ^ l = m0) := by
      have := pow_pos l; have := pow_pos l0; omega
    rw [set2_ne _ _ h', hi.sch l m hp]
    simp only [set_lt (fun e => (hne l m hp e).1), set_le (fun e => hne2 l m hp e)]
  · intro l m hp
    show _ < set s.pc _ _ m → _ < set s.pc _ _ (m + 2 ^ l)
    rw [set_lt (fun e => (hne l m hp e).2)]
    intro h
    have := hi.gord l m hp h
    unfold set; split
    · rename_i e; rw [← e]; omega
    · exact this
  · intro l m hp
    show set2 s.chan _ _ _ _ _ = if _ < set s.pc _ _ (m + 2 ^ l) ∧ set s.pc _ _ m ≤ _ then _ else _
    by_cases h : l = l0 ∧ m = m0
    · obtain ⟨h, h'⟩ := h; subst h; subst h'
      rw [set2_self, hemp, if_pos]
      · rw [hd]; rfl
      · rw [set_self, set_le (fun e => (hne l m hp e).2)]; omega
    · have h' : ¬ (m + 2 ^ l = m0 + 2 ^ l0 ∧ m = m0) := by
        rintro ⟨e1, e2⟩; exact h ⟨pair_level e1 e2, e2⟩
      rw [set2_ne _ _ h', hi.gch l m hp]
      simp only [set_le (t := gsp c l + 1) (x := m) (fun e => (hne l m hp e).2)]
      simp only [set_lt (fun e => absurd (pair_recv hp hp0 e) h)]
  · intro a b hab
    by_cases h : a = m0 + 2 ^ l0 ∧ b = m0
    · exact ⟨l0, m0, hp0, Or.inr h⟩
    · refine hi.other a b ?_
      intro e; apply hab
      show set2 s.chan _ _ _ _ _ = _
      rw [set2_ne _ _ h, e]

/-- The receive of the gathering. -/
theorem inv_gr {c : Cfg α} {items : List α} {s : St α} (hi : Inv c items s) {l0 m0 : Nat}
    (hp0 : Pair c l0 m0) (hpc : s.pc m0 = gsp c l0 + 1) (hn : m0 ≤ c.n)
    {m : List α} {ms : List (List α)} (hch : s.chan (m0 + 2 ^ l0) m0 = m :: ms) :
    Inv c items { s with
      pc := set s.pc m0 (s.pc m0 + 1),
      data := set s.data m0 (s.data m0 ++ m),
      chan := set2 s.chan (m0 + 2 ^ l0) m0 ms } := by
  have hs := hi.gch l0 m0 hp0
  rw [hch] at hs
  split at hs
  case isFalse => cases hs
  rename_i hcond
  obtain ⟨hm, hms⟩ := List.cons.inj hs
  subst hm; subst hms
  have hl0 := hp0.1
  have hlen : s.pc m0 < progLen c.levels := by rw [hpc]; unfold progLen gsp; omega
  have hne : ∀ l m, Pair c l m → m + 2 ^ l = m0 → s.pc m0 ≠ 2 * l ∧ s.pc m0 ≠ gsp c l := by
    intro l m hp _; have := hp.1; rw [hpc]; unfold gsp; omega
  have hne2 : ∀ l m, Pair c l m → m = m0 → s.pc m0 ≠ 2 * l + 1 := by
    intro l m hp _; have := hp.1; rw [hpc]; unfold gsp; omega
  refine ⟨set_data hi ?_, set_len hi hlen, ?_, ?_, ?_, ?_, ?_⟩
  · rw [hi.data _ hp0.2.1 hn, hpc]; unfold gsp
    rw [show ∀ a, a + 1 + 2 * (c.levels - 1 - l0) + 1 = a + 2 + 2 * (c.levels - 1 - l0) by
        intro a; omega, D_g',
      show ∀ a, a + 2 + 2 * (c.levels - 1 - l0) + 1 = a + 1 + 2 * (c.levels - 1 - l0 + 1) by
        intro a; omega, D_g]
    show _ = if _ then _ else _
    rw [show c.levels - 1 - (c.levels - 1 - l0) = l0 by omega, if_pos hp0.2.2]
  · intro l m hp
    show _ < set s.pc _ _ (m + 2 ^ l) → _ < set s.pc _ _ m
    rw [set_lt (fun e => hne2 l m hp e), set_lt (fun e => (hne l m hp e).1)]
    exact hi.sord l m hp
  · intro l m hp
    show set2 s.chan _ _ _ _ _ = if _ < set s.pc _ _ m ∧ set s.pc _ _ (m + 2 ^ l) ≤ _ then _ else _
    have h' : ¬ (m = m0 + 2 ^ l0 ∧ m + 2 ^ l = m0) := by
      have := pow_pos l; have := pow_pos l0; omega
    rw [set2_ne _ _ h', hi.sch l m hp]
    simp only [set_lt (fun e => hne2 l m hp e), set_le (fun e => (hne l m hp e).1)]
  · intro l m hp
    show _ < set s.pc _ _ m → _ < set s.pc _ _ (m + 2 ^ l)
    rw [set_lt (fun e => (hne l m hp e).2)]
    by_cases h : l = l0 ∧ m = m0
    · obtain ⟨h, h'⟩ := h; subst h; subst h'
      intro _; exact hcond.1
    · rw [set_lt]; exact hi.gord l m hp
      intro e e'; subst e
      have := hp.1
      exact h ⟨by unfold gsp at *; omega, rfl⟩
  · intro l m hp
    show set2 s.chan _ _ _ _ _ = if _ < set s.pc _ _ (m + 2 ^ l) ∧ set s.pc _ _ m ≤ _ then _ else _
    by_cases h : l = l0 ∧ m = m0
    · obtain ⟨h, h'⟩ := h; subst h; subst h'
      rw [set2_self, if_neg]
      rw [set_self]; omega
    · have h' : ¬ (m + 2 ^ l = m0 + 2 ^ l0 ∧ m = m0) := by
        rintro ⟨e1, e2⟩; exact h ⟨pair_level e1 e2, e2⟩
      rw [set2_ne _ _ h', hi.gch l m hp]
      simp only [set_lt (t := gsp c l) (x := m + 2 ^ l) (fun e => (hne l m hp e).2)]
      have hl := hp.1
      simp only [set_le (t := gsp c l + 1) (x := m) (r := m0) (pc := s.pc)
        (fun e e' => h ⟨by unfold gsp at *; omega, e⟩)]
  · intro a b hab
    by_cases h : a = m0 + 2 ^ l0 ∧ b = m0
    · exact ⟨l0, m0, hp0, Or.inr h⟩
    · refine hi.other a b ?_
      intro e; apply hab
      show set2 s.chan _ _ _ _ _ = _
      rw [set2_ne _ _ h, e]

theorem set_id (f : Nat → β) (r : Nat) : set f r (f r) = f := by
  funext x; unfold set; split
  · rename_i e; rw [e]
  · rfl

theorem inv_step {c : Cfg α} {items : List α} {s s' : St α} {r : Nat} (hi : Inv c items s)
    (hr : 1 ≤ r) (hrn : r ≤ c.n) (h : step c s r = some (.ok s')) : Inv c items s' := by
  unfold step at h
  simp only at h
  split at h
  · cases h
  rename_i hlt
  have hlt : s.pc r < progLen c.levels := by omega
  have hdat := hi.data r hr hrn
  rcases pc_cases hlt with ⟨l, hl, hp⟩ | ⟨l, hl, hp⟩ | hp | ⟨j, hj, hp⟩ | ⟨j, hj, hp⟩
  · -- receive of the scattering
    rw [hp, instr_sr hl hr] at h
    by_cases hc : 2 ^ l < r ∧ r ≤ 2 * 2 ^ l
    · rw [if_pos hc] at h
      simp only at h
      have hpair : Pair c l (r - 2 ^ l) := ⟨hl, by omega, by omega, by omega⟩
      have hre : r - 2 ^ l + 2 ^ l = r := by omega
      split at h
      · cases h
      · rename_i m ms hch
        have := inv_sr hi hpair (by rw [hre]; exact hp) (m := m) (ms := ms) (by rw [hre]; exact hch)
        rw [hre] at this
        cases h
        rw [hp] at this
        exact this
    · rw [if_neg hc] at h
      simp only at h
      have := inv_local hi hlt (v := s.data r) (by
        rw [hdat, hp, D_even (by omega), D_odd hl]; unfold A; rw [if_neg hc])
        (by intro l' m hp' _; have := hp'.1; unfold gsp; omega)
        (by
          intro l' m hp' e
          constructor
          · intro e'
            have : l' = l := by omega
            subst this
            have := hp'.2; apply hc; omega
          · unfold gsp; omega)
      rw [set_id] at this
      cases h
      rw [hp] at this
      exact this
  · -- send of the scattering
    rw [hp, instr_ss hl hr] at h
    by_cases hc : r ≤ 2 ^ l ∧ r + 2 ^ l ≤ c.n
    · rw [if_pos hc] at h
      simp only at h
      have hpair : Pair c l r := ⟨hl, hr, hc.1, hc.2⟩
      split at h
      · rename_i keep snd hk
        have e := processData_ok hk
        have := inv_ss hi hpair hp hrn
        rw [← e] at this
        cases h
        rw [hp] at this
        exact this
      · cases h
      · cases h
    · rw [if_neg hc] at h
      simp only at h
      have := inv_local hi hlt (v := s.data r) (by
        rw [hdat, hp, D_odd hl, show 2 * l + 1 + 1 = 2 * (l + 1) by omega, D_even (by omega)]
        unfold A
        show _ = if r ≤ 2 ^ l then _ else _
        by_cases h1 : r ≤ 2 ^ l
        · rw [if_neg (by omega), if_pos h1, if_neg (by omega)]
        · rw [if_neg h1]
          by_cases h2 : r ≤ 2 * 2 ^ l
          · rw [if_pos (by omega), if_pos h2]
          · rw [if_neg (by omega), if_neg h2])
        (by
          intro l' m hp' e
          constructor
          · intro e'
            have : l' = l := by omega
            subst this
            have := hp'.2; apply hc; omega
          · have := hp'.1; unfold gsp; omega)
        (by intro l' m hp' e; have := hp'.1; unfold gsp; omega)
      rw [set_id] at this
      cases h
      rw [hp] at this
      exact this
  · -- mark
    rw [hp, instr_mark] at h
    simp only at h
    have := inv_local hi hlt (v := (s.data r).map (c.mark r)) (by
        rw [hdat, hp, D_even (Nat.le_refl _), show 2 * c.levels + 1 = 2 * c.levels + 1 + 2 * 0 by omega, D_g]
        rfl)
      (by intro l' m hp' _; have := hp'.1; unfold gsp; omega)
      (by intro l' m hp' e; have := hp'.1; unfold gsp; omega)
    cases h
    rw [hp] at this
    exact this
  · -- send of the gathering
    rw [hp, instr_gs hj hr] at h
    have hg : gsp c (c.levels - 1 - j) = 2 * c.levels + 1 + 2 * j := by unfold gsp; omega
    by_cases hc : 2 ^ (c.levels - 1 - j) < r ∧ r ≤ 2 * 2 ^ (c.levels - 1 - j)
    · rw [if_pos hc] at h
      simp only at h
      have hpair : Pair c (c.levels - 1 - j) (r - 2 ^ (c.levels - 1 - j)) :=
        ⟨by omega, by omega, by omega, by omega⟩
      have hre : r - 2 ^ (c.levels - 1 - j) + 2 ^ (c.levels - 1 - j) = r := by omega
      have := inv_gs hi hpair (by rw [hre, hg]; exact hp)
      rw [hre] at this
      cases h
      rw [hp] at this
      exact this
    · rw [if_neg hc] at h
      simp only at h
      have := inv_local hi hlt (v := s.data r) (by
        rw [hdat, hp, D_g, show 2 * c.levels + 1 + 2 * j + 1 = 2 * c.levels + 2 + 2 * j by omega,
          D_g'])
        (by intro l' m hp' _; have := hp'.1; unfold gsp; omega)
        (by
          intro l' m hp' e
          constructor
          · have := hp'.1; omega
          · intro e'
            have : l' = c.levels - 1 - j := by have := hp'.1; unfold gsp at e'; omega
            subst this
            have := hp'.2; apply hc; omega)
      rw [set_id] at this
      cases h
      rw [hp] at this
      exact this
  · -- receive of the gathering
    rw [hp, instr_gr hj hr] at h
    have hg : gsp c (c.levels - 1 - j) + 1 = 2 * c.levels + 2 + 2 * j := by unfold gsp; omega
    by_cases hc : r ≤ 2 ^ (c.levels - 1 - j) ∧ r + 2 ^ (c.levels - 1 - j) ≤ c.n
    · rw [if_pos hc] at h
      simp only at h
      have hpair : Pair c (c.levels - 1 - j) r := ⟨by omega, hr, hc.1, hc.2⟩
      split at h
      · cases h
      · rename_i m ms hch
        have := inv_gr hi hpair (by rw [hg]; exact hp) hrn hch
        cases h
        rw [hp] at this
        exact this
    · rw [if_neg hc] at h
      simp only at h
      have := inv_local hi hlt (v := s.data r) (by
        rw [hdat, hp, D_g', show 2 * c.levels + 2 + 2 * j + 1 = 2 * c.levels + 1 + 2 * (j + 1) by omega,
          D_g]
        show _ = if _ then _ else _
        rw [if_neg hc])
        (by
          intro l' m hp' e
          constructor
          · have := hp'.1; omega
          · intro e'
            have : l' = c.levels - 1 - j := by have := hp'.1; unfold gsp at e'; omega
            subst this
            have := hp'.2; apply hc; omega)
        (by intro l' m hp' e; have := hp'.1; unfold gsp; omega)
      rw [set_id] at this
      cases h
      rw [hp] at this
      exact this

theorem inv_reach {c : Cfg α} {items : List α} {s : St α} (h : Reach c items s) :
    Inv c items s := by
  induction h with
  | init => exact inv_init c items
  | step _ h1 h2 hs ih => exact inv_step ih h1 h2 hs

end Verif.Tree
