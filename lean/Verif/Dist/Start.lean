import Verif.Dist.Step

/-! What a split gives to each process, and what a merge gives back. -/

namespace Verif.Dist

section
variable {K M R C F T : Type} [AddCommMonoid F]

theorem found_iff (l : List (Intr C)) (a b : ℕ) : found l a b = true ↔ Listed l a b := by
  unfold found Listed
  simp [List.any_eq_true]

theorem addPotential_mem {l : List (Intr C)} {ab : ℕ × ℕ} {I : Intr C} (h : I ∈ addPotential l ab) : I ∈ l ∨ I = ⟨ab.1, ab.2, none⟩ := by
  unfold addPotential at h
  split_ifs at h
  · exact .inl h
  · rcases List.mem_append.1 h with h | h
    · exact .inl h
    · exact .inr (List.mem_singleton.1 h)

theorem addPotential_proper {l : List (Intr C)} (hl : ProperList l) {ab : ℕ × ℕ} (hab : ab.1 ≠ ab.2) : ProperList (addPotential l ab) := by
  unfold addPotential
  split_ifs with hf
  · exact hl
  · rw [found_iff] at hf
    refine ⟨?_, ?_⟩
    · rw [List.pairwise_append]
      refine ⟨hl.1, List.pairwise_singleton _ _, ?_⟩
      intro I hI J hJ h
      rw [List.mem_singleton] at hJ
      subst hJ
      exact hf ⟨I, hI, h⟩
    · intro I hI
      rcases List.mem_append.1 hI with h | h
      · exact hl.2 I h
      · rw [List.mem_singleton.1 h]; exact hab

theorem view_append_none (swap : C → C) (l : List (Intr C)) (a b i j : ℕ) :
    (view swap (l ++ [⟨a, b, none⟩]) i j).getD none = (view swap l i j).getD none := by
  induction l with
  | nil =>
    simp only [List.nil_append, view, Option.map_none]
    split_ifs <;> rfl
  | cons I l ih =>
    simp only [List.cons_append, view]
    split_ifs
    · rfl
    · rfl
    · exact ih

theorem addPotential_view (swap : C → C) (l : List (Intr C)) (ab : ℕ × ℕ) (i j : ℕ) :
    (view swap (addPotential l ab) i j).getD none = (view swap l i j).getD none := by
  unfold addPotential
  split_ifs
  · rfl
  · exact view_append_none swap l _ _ i j

theorem foldl_mem {l : List (Intr C)} {ps : List (ℕ × ℕ)} {I : Intr C} (h : I ∈ ps.foldl addPotential l) :
    I ∈ l ∨ ∃ ab ∈ ps, I = ⟨ab.1, ab.2, none⟩ := by
  induction ps generalizing l with
  | nil => exact .inl h
  | cons a ps ih =>
    rw [List.foldl_cons] at h
    rcases ih h with h | ⟨ab, h1, h2⟩
    · rcases addPotential_mem h with h | h
      · exact .inl h
      · exact .inr ⟨a, List.mem_cons_self .., h⟩
    · exact .inr ⟨ab, List.mem_cons_of_mem _ h1, h2⟩

theorem foldl_proper {l : List (Intr C)} (hl : ProperList l) {ps : List (ℕ × ℕ)} (hp : ∀ ab ∈ ps, ab.1 ≠ ab.2) :
    ProperList (ps.foldl addPotential l) := by
  induction ps generalizing l with
  | nil => exact hl
  | cons a ps ih =>
    rw [List.foldl_cons]
    exact ih (addPotential_proper hl (hp a (List.mem_cons_self ..))) fun ab h => hp ab (List.mem_cons_of_mem _ h)

theorem foldl_view (swap : C → C) (l : List (Intr C)) (ps : List (ℕ × ℕ)) (i j : ℕ) :
    (view swap (ps.foldl addPotential l) i j).getD none = (view swap l i j).getD none := by
  induction ps generalizing l with
  | nil => rfl
  | cons a ps ih => rw [List.foldl_cons, ih, addPotential_view]

theorem filter_view (swap : C → C) (l : List (Intr C)) (hl : ProperList l) (f : Intr C → Bool) (i j : ℕ)
    (hf : ∀ I ∈ l, (I.id1 = i ∧ I.id2 = j) ∨ (I.id1 = j ∧ I.id2 = i) → I.con.isSome → f I = true) :
    (view swap (l.filter f) i j).getD none = (view swap l i j).getD none := by
  induction l with
  | nil => rfl
  | cons I l ih =>
    obtain ⟨hp, hs⟩ := hl
    rw [List.pairwise_cons] at hp
    have ih' := ih ⟨hp.2, fun J hJ => hs J (List.mem_cons_of_mem _ hJ)⟩ fun J hJ => hf J (List.mem_cons_of_mem _ hJ)
    by_cases hm : (I.id1 = i ∧ I.id2 = j) ∨ (I.id1 = j ∧ I.id2 = i)
    · by_cases hfI : f I = true
      · rw [List.filter_cons_of_pos hfI]
        unfold view
        rcases hm with hm | hm
        · rw [if_pos hm, if_pos hm]
        · by_cases h1 : I.id1 = i ∧ I.id2 = j
          · rw [if_pos h1, if_pos h1]
          · rw [if_neg h1, if_neg h1, if_pos hm, if_pos hm]
      · rw [List.filter_cons_of_neg hfI, ih']
        have hcon : I.con = none := by
          cases hc : I.con with
          | none => rfl
          | some c => exact (hfI (hf I (List.mem_cons_self ..) hm (by rw [hc]; rfl))).elim
        have hn : view swap l i j = none := by
          rw [view_none]
          rintro ⟨J, hJ, hJ'⟩
          refine hp.1 J hJ ?_
          rcases hm with ⟨a, b⟩ | ⟨a, b⟩ <;> rcases hJ' with ⟨c, d⟩ | ⟨c, d⟩
          · exact .inl ⟨a.trans c.symm, b.trans d.symm⟩
          · exact .inr ⟨a.trans d.symm, b.trans c.symm⟩
          · exact .inr ⟨a.trans d.symm, b.trans c.symm⟩
          · exact .inl ⟨a.trans c.symm, b.trans d.symm⟩
        rw [hn]
        unfold view
        rw [hcon]
        rcases hm with hm | hm
        · rw [if_pos hm]; rfl
        · by_cases h1 : I.id1 = i ∧ I.id2 = j
          · rw [if_pos h1]; rfl
          · rw [if_neg h1, if_pos hm]; rfl
    · have e : view swap (I :: l) i j = view swap l i j := by
        conv_lhs => unfold view
        rw [if_neg fun h => hm (.inl h), if_neg fun h => hm (.inr h)]
      rw [e]
      by_cases hfI : f I = true
      · rw [List.filter_cons_of_pos hfI]
        have e : view swap (I :: l.filter f) i j = view swap (l.filter f) i j := by
          conv_lhs => unfold view
          rw [if_neg fun h => hm (.inl h), if_neg fun h => hm (.inr h)]
        rw [e, ih']
      · rw [List.filter_cons_of_neg hfI, ih']

theorem filter_proper {l : List (Intr C)} (hl : ProperList l) (f : Intr C → Bool) : ProperList (l.filter f) :=
  ⟨hl.1.filter _, fun I hI => hl.2 I (List.mem_filter.1 hI).1⟩

theorem view_some {swap : C → C} {l : List (Intr C)} {i j : ℕ} {v : Option C} (h : view swap l i j = some v) :
    (∃ I ∈ l, I.id1 = i ∧ I.id2 = j ∧ v = I.con) ∨ ∃ I ∈ l, I.id1 = j ∧ I.id2 = i ∧ v = I.con.map swap := by
  induction l with
  | nil => simp [view] at h
  | cons I l ih =>
    unfold view at h
    by_cases h1 : I.id1 = i ∧ I.id2 = j
    · rw [if_pos h1] at h
      exact .inl ⟨I, List.mem_cons_self .., h1.1, h1.2, (Option.some.inj h).symm⟩
    · rw [if_neg h1] at h
      by_cases h2 : I.id1 = j ∧ I.id2 = i
      · rw [if_pos h2] at h
        exact .inr ⟨I, List.mem_cons_self .., h2.1, h2.2, (Option.some.inj h).symm⟩
      · rw [if_neg h2] at h
        rcases ih h with ⟨J, hJ, hh⟩ | ⟨J, hJ, hh⟩
        · exact .inl ⟨J, List.mem_cons_of_mem _ hJ, hh⟩
        · exact .inr ⟨J, List.mem_cons_of_mem _ hJ, hh⟩

theorem view_of_mem {swap : C → C} {l : List (Intr C)} (hl : ProperList l) {I : Intr C} (hI : I ∈ l) :
    view swap l I.id1 I.id2 = some I.con ∧ view swap l I.id2 I.id1 = some (I.con.map swap) := by
  induction l with
  | nil => simp at hI
  | cons J l ih =>
    obtain ⟨hp, hs⟩ := hl
    rw [List.pairwise_cons] at hp
    rcases List.mem_cons.1 hI with rfl | hI'
    · have hne := hs I (List.mem_cons_self ..)
      constructor
      · unfold view; rw [if_pos ⟨rfl, rfl⟩]
      · unfold view; rw [if_neg fun h => hne h.1, if_pos ⟨rfl, rfl⟩]
    · have hJ := hp.1 I hI'
      have ih' := ih ⟨hp.2, fun J hJ => hs J (List.mem_cons_of_mem _ hJ)⟩ hI'
      unfold view
      rw [if_neg fun h => hJ (.inl h), if_neg fun h => hJ (.inr h), if_neg fun h => hJ (.inr h), if_neg fun h => hJ (.inl h)]
      exact ih'

theorem sameContact_iff {swap : C → C} {x : World M R C} {l : List (Intr C)} (hl : ProperList l) (i j : ℕ) :
    SameContact swap x l i j ↔ (view swap l i j).getD none = x.con i j := by
  constructor
  · rintro ⟨h1, h2, h3⟩
    cases hv : view swap l i j with
    | none => exact (h3 ((view_none swap l i j).1 hv)).symm
    | some v =>
      rcases view_some hv with ⟨I, hI, a, b, e⟩ | ⟨I, hI, a, b, e⟩
      · rw [e]; exact h1 I hI a b
      · rw [e]; exact h2 I hI a b
  · intro h
    refine ⟨?_, ?_, ?_⟩
    · rintro I hI rfl rfl
      rw [(view_of_mem hl hI).1] at h; exact h
    · rintro I hI rfl rfl
      rw [(view_of_mem hl hI).2] at h; exact h
    · intro hn
      rw [(view_none swap l i j).2 hn] at h; exact h.symm

variable {p : Phys K M R C F T} {swap : C → C} {u : Setup K F T} {own : ℕ → ℕ} {n : ℕ} {pl : Plan} {x : World M R C} {s : Scene K M R C F T}

theorem kept_iff (h : ShowsMotion u own x s) (w i : ℕ) : (keptBody pl s w i).isSome ↔ i ∈ u.ids ∧ (own i = w ∨ i ∈ pl.keep w) := by
  unfold keptBody
  by_cases hi : i ∈ u.ids
  · obtain ⟨r, hr⟩ := h.bodies i hi
    rw [hr, Option.filter_some]
    by_cases hk : own i = w ∨ i ∈ pl.keep w
    · simp [hk, hi]
    · simp [hk]
  · rw [h.others i hi]; simp [hi]

theorem kept_some {w i : ℕ} {b : Body K M R} (h : keptBody pl s w i = some b) : s.body i = some b :=
  (Option.filter_eq_some_iff.1 h).1

theorem shows_isSome (h : ShowsMotion u own x s) (i : ℕ) : (s.body i).isSome ↔ i ∈ u.ids := by
  by_cases hi : i ∈ u.ids
  · obtain ⟨r, hr⟩ := h.bodies i hi
    rw [hr]; simp [hi]
  · rw [h.others i hi]; simp [hi]

theorem shows_body (h : ShowsMotion u own x s) {i : ℕ} {b : Body K M R} (hb : s.body i = some b) :
    i ∈ u.ids ∧ b.sub = own i ∧ b.k = u.k i ∧ b.m = x.m i := by
  have hi := (shows_isSome h i).1 (by rw [hb]; rfl)
  obtain ⟨r, hr⟩ := h.bodies i hi
  rw [hr] at hb
  cases hb
  exact ⟨hi, rfl, rfl, rfl⟩

theorem split_zero : (split pl s 0).rank = 0 ∧ (split pl s 0).body = s.body ∧ (split pl s 0).dt = s.dt ∧ (split pl s 0).perm = s.perm ∧
    (split pl s 0).intrs = (pl.pairs 0).foldl addPotential s.intrs := ⟨rfl, rfl, rfl, rfl, rfl⟩

theorem split_pos {w : ℕ} (hw : w ≠ 0) : (split pl s w).rank = w ∧ (split pl s w).body = keptBody pl s w ∧ (split pl s w).dt = s.dt ∧
    (split pl s w).perm = (fun _ => 0) ∧ (split pl s w).intrs = (pl.pairs w).foldl addPotential (s.intrs.filter (keptIntr pl s w)) := by
  unfold split
  rw [if_neg hw]
  exact ⟨rfl, rfl, rfl, rfl, rfl⟩

theorem split_proper (h : ShowsMotion u own x s) (hp : GoodPlan u own n pl s) {w : ℕ} (hw : w < n) : ProperList (split pl s w).intrs := by
  by_cases hw0 : w = 0
  · subst hw0
    rw [split_zero.2.2.2.2]
    exact foldl_proper h.proper fun ab hab => (hp.pairs 0 hw ab hab).1
  · rw [(split_pos hw0).2.2.2.2]
    exact foldl_proper (filter_proper h.proper _) fun ab hab => (hp.pairs w hw ab hab).1

theorem split_body {w i : ℕ} {b : Body K M R} (hb : (split pl s w).body i = some b) : s.body i = some b := by
  by_cases hw0 : w = 0
  · subst hw0; exact hb
  · rw [(split_pos hw0).2.1] at hb
    exact kept_some hb

theorem split_fits (h : ShowsMotion u own x s) (hp : GoodPlan u own n pl s) (hc : Clean own s) (hpm : PermOnMaster u own) :
    Fits u own n pl.comm (split pl s) := by
  refine ⟨hp.owner, ?_, ?_, ?_, ?_, fun w hw => split_proper h hp hw, ?_, ?_, hp.ghosts, hp.report, hp.nodup, ?_, ?_, hpm⟩
  · intro w _
    by_cases hw0 : w = 0
    · subst hw0; rfl
    · exact (split_pos hw0).1
  · intro w _
    by_cases hw0 : w = 0
    · subst hw0; exact h.dt
    · rw [(split_pos hw0).2.2.1]; exact h.dt
  · intro w _ i b hb
    have := shows_body h (split_body hb)
    exact ⟨this.1, this.2.1, this.2.2.1⟩
  · intro w _ i hi ho
    by_cases hw0 : w = 0
    · subst hw0; exact (shows_isSome h i).2 hi
    · rw [(split_pos hw0).2.1, kept_iff h]; exact ⟨hi, .inl ho⟩
  · intro I hI
    rcases foldl_mem hI with hI | ⟨ab, h1, rfl⟩
    · exact hc I hI
    · have := hp.masterPairs ab h1
      exact ⟨fun _ => this.2, fun _ => this.1⟩
  · intro w hw hw0 v hv
    obtain ⟨h1, h2, h3, h4⟩ := hp.lists w hw hw0 v hv
    refine ⟨h1, h2, h3, fun i hi => ⟨(h4 i hi).1, (h4 i hi).2.1, ?_⟩⟩
    rw [(split_pos hw0).2.1, kept_iff h]
    exact ⟨(h4 i hi).1, .inr (h4 i hi).2.2⟩
  · intro i hi ho
    exact h.perm i hi ho
  · intro w _ hw0 i
    rw [(split_pos hw0).2.2.2.1]

/-- Contacts of the bodies of a process after the split. -/
theorem split_view (h : ShowsMotion u own x s) (hp : GoodPlan u own n pl s) {w : ℕ} {i : ℕ} (hi : i ∈ u.ids) (ho : own i = w) (j : ℕ)
    (hj : j ∈ u.ids) : (view swap (split pl s w).intrs i j).getD none = (view swap s.intrs i j).getD none := by
  by_cases hw0 : w = 0
  · subst hw0
    rw [split_zero.2.2.2.2, foldl_view]
  · rw [(split_pos hw0).2.2.2.2, foldl_view]
    refine filter_view swap _ h.proper _ i j ?_
    intro I hI hm hcon
    unfold keptIntr
    rw [Bool.and_eq_true, Bool.and_eq_true, kept_iff h, kept_iff h]
    have hk := hp.keeps I hI hcon
    rcases hm with ⟨a, b⟩ | ⟨a, b⟩
    · rw [a, b] at hk ⊢
      refine ⟨⟨hcon, hi, .inl ho⟩, hj, ?_⟩
      by_cases hjw : own j = w
      · exact .inl hjw
      · exact .inr (ho ▸ hk.1 (by rw [ho]; exact hw0) (by rw [ho]; exact hjw))
    · rw [a, b] at hk ⊢
      refine ⟨⟨hcon, hj, ?_⟩, hi, .inl ho⟩
      by_cases hjw : own j = w
      · exact .inl hjw
      · exact .inr (ho ▸ hk.2 (by rw [ho]; exact hw0) (by rw [ho]; exact hjw))

theorem split_inv (h : Shows swap u own x s) (hx : TwoSided swap x) (hp : GoodPlan u own n pl s) (hc : Clean own s) (hpm : PermOnMaster u own) :
    Inv u own n pl.comm swap Eq Eq x (split pl s) := by
  refine ⟨split_fits h.motion hp hc hpm, hx, ?_, ?_, ?_⟩
  · intro w _ i hi _ b hb
    have := split_body hb
    rw [h.bodies i hi] at this
    cases this
    exact ⟨rfl, rfl⟩
  · intro w _ _ v _ i _ b hb
    exact (shows_body h.motion (split_body hb)).2.2.2
  · intro w _ i hi ho j hj hji _
    rw [split_view h.motion hp hi ho j hj]
    exact (sameContact_iff h.motion.proper i j).1 (h.contacts i hi j hj hji)

theorem split_inv_motion (h : ShowsMotion u own x s) (hx : TwoSided swap x) (hp : GoodPlan u own n pl s) (hc : Clean own s)
    (hpm : PermOnMaster u own) : Inv u own n pl.comm swap (fun _ _ => True) (fun _ _ => True) x (split pl s) := by
  refine ⟨split_fits h hp hc hpm, hx, ?_, ?_, ?_⟩
  · intro w _ i hi _ b hb
    exact ⟨(shows_body h (split_body hb)).2.2.2, trivial⟩
  · intro w _ _ v _ i _ b hb
    exact (shows_body h (split_body hb)).2.2.2
  · intros; trivial

theorem compat_eq (h1 : EvenHanded p swap) (h2 : ReadsMotion p) (h3 : ConstantDt p) : Compat n p swap Eq Eq :=
  ⟨h1, .inl h2, h3, rfl, fun _ _ h => h ▸ rfl, fun _ _ _ _ _ _ _ _ _ h => h ▸ rfl, fun _ _ _ _ _ _ _ _ _ h => h ▸ rfl,
    fun _ _ _ _ _ _ h => h ▸ ⟨rfl, rfl⟩⟩

theorem compat_motion (h1 : EvenHanded p swap) (h2 : ReadsMotion p) (h3 : ConstantDt p) (h4 : Forgetful p) (h5 : MovesByMotion p) :
    Compat n p swap (fun _ _ => True) (fun _ _ => True) :=
  ⟨h1, .inl h2, h3, trivial, fun _ _ _ => trivial, fun _ _ _ _ _ _ _ _ _ _ => trivial, fun _ _ _ _ _ _ _ _ _ _ => h4 _ _ _ _ _ _ _ _ _,
    fun _ _ _ _ _ _ _ => ⟨h5 _ _ _ _ _ _, trivial⟩⟩

theorem compat_serial (h1 : EvenHanded p swap) (h3 : ConstantDt p) : Compat 1 p swap Eq Eq :=
  ⟨h1, .inr ⟨le_refl _, fun _ _ h => h⟩, h3, rfl, fun _ _ h => h ▸ rfl, fun _ _ _ _ _ _ _ _ _ h => h ▸ rfl, fun _ _ _ _ _ _ _ _ _ h => h ▸ rfl,
    fun _ _ _ _ _ _ h => h ▸ ⟨rfl, rfl⟩⟩

/-- A merge shows the motions of all bodies. -/
theorem merge_shows {c : Comm} {ρ : R → R → Prop} {σ : Option C → Option C → Prop} {ss : ℕ → Scene K M R C F T}
    (h : Inv u own n c swap ρ σ x ss) (hn : 0 < n) (hall : ∀ i ∈ u.ids, ((ss 0).body i).isSome) : ShowsMotion u own x (merge ss) := by
  refine ⟨h.fits.rank 0 hn, h.fits.dt 0 hn, ?_, ?_, h.fits.permMaster, h.fits.proper 0 hn⟩
  · intro i hi
    obtain ⟨b, hb⟩ := Option.isSome_iff_exists.1 (hall i hi)
    have h1 := h.fits.bodies 0 hn i b hb
    unfold merge
    simp only [hb, Option.map_some]
    by_cases h0 : own i = 0
    · rw [if_pos (h1.2.1.trans h0)]
      obtain ⟨b', e, e1, e2, e3, _⟩ := h.own_body hn hi h0
      rw [hb] at e
      cases e
      refine ⟨b.r, ?_⟩
      cases b
      simp only at *
      rw [h1.2.1, e2, e3]
    · rw [if_neg (by rw [h1.2.1]; exact h0)]
      obtain ⟨b', e, _, e2, e3, _⟩ := h.own_body (h.fits.owner i hi) hi rfl
      rw [h1.2.1, e]
      refine ⟨b.r, ?_⟩
      cases b
      simp only at *
      rw [h1.2.2, e3]
  · intro i hi
    unfold merge
    simp only
    cases hb : (ss 0).body i with
    | none => rfl
    | some b => exact (hi (h.fits.bodies 0 hn i b hb).1).elim

end

end Verif.Dist
