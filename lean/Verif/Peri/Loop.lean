import Verif.Peri.Sort
/-!
# The loops of the periodic insertion sort
-/
namespace Verif.Peri
open Verif Verif.Collide

variable {R : Type} [Field R] [LinearOrder R] [IsStrictOrderedRing R] [FloorRing R]

set_option linter.unusedSectionVars false

theorem Tracks.refl {n : Nat} {L : Key → Prop} {hb : Nat → Bool} {C : PCx R} {K : Key → Int} {I : PInts} : Tracks n L hb C K K I := by
  intro i j m _ _ _ _ _ h1 h2; omega

theorem Tracks.trans {n : Nat} {L : Key → Prop} {hb : Nat → Bool} {C : PCx R} {K K' K'' : Key → Int} {I' I'' : PInts}
    (hinj : ∀ κ κ' (m : Int), L κ → L κ' → K' κ = K' κ' + n * m → κ = κ')
    (h : Tracks n L hb C K K' I') (g : Grow C hb I' I'') (h' : Tracks n L hb C K' K'' I'') : Tracks n L hb C K K'' I'' := by
  intro i j m hij hi hj Li Lj h1 h2
  rcases Int.lt_trichotomy (K' (i, true)) (K' (j, false) + n * m) with c | c | c
  · exact (h i j m hij hi hj Li Lj h1 c).mono g
  · have := hinj _ _ m Li Lj c
    simp at this
  · exact h' i j m hij hi hj Li Lj c h2

theorem mod_inj {n r r' : Nat} (h : r % n = r' % n) (h1 : r < r' + n) (h2 : r' < r + n) : r = r' := by
  have e1 := Nat.div_add_mod r n
  have e2 := Nat.div_add_mod r' n
  rcases Nat.lt_trichotomy (r / n) (r' / n) with c | c | c
  · have : n * (r / n + 1) ≤ n * (r' / n) := Nat.mul_le_mul_left n c
    rw [Nat.mul_add] at this; omega
  · rw [c] at e1; omega
  · have : n * (r' / n + 1) ≤ n * (r / n) := Nat.mul_le_mul_left n c
    rw [Nat.mul_add] at this; omega

theorem mod_succ {n H : Nat} (hn : 0 < n) : (H + 1) % n = nxt n (H % n) := by
  have e := Nat.div_add_mod H n
  have l := Nat.mod_lt H hn
  unfold nxt
  split
  · have : H + 1 = n * (H / n + 1) := by rw [Nat.mul_add]; omega
    rw [this, Nat.mul_mod_right]
  · have : H + 1 = H % n + 1 + n * (H / n) := by omega
    rw [this, Nat.add_mul_mod_self_left, Nat.mod_eq_of_lt (by omega)]

theorem mod_pred {n H : Nat} (hn : 0 < n) (hH : 0 < H) : (H - 1) % n = prv n (H % n) := by
  have : H % n = nxt n ((H - 1) % n) := by rw [← mod_succ hn]; congr 1; omega
  rw [this, prv_nxt (Nat.mod_lt _ hn)]

theorem exists_res {n a r' : Nat} (h : r' < n) (hne : r' ≠ a % n) : ∃ r, a < r ∧ r < a + n ∧ r % n = r' := by
  have e := Nat.div_add_mod a n
  have l := Nat.mod_lt a (show 0 < n by omega)
  by_cases c : a % n < r'
  · refine ⟨a + (r' - a % n), by omega, by omega, ?_⟩
    have : a + (r' - a % n) = r' + n * (a / n) := by omega
    rw [this, Nat.add_mul_mod_self_left, Nat.mod_eq_of_lt h]
  · refine ⟨a + (r' + n - a % n), by omega, by omega, ?_⟩
    have : a + (r' + n - a % n) = r' + n * (a / n + 1) := by rw [Nat.mul_add]; omega
    rw [this, Nat.add_mul_mod_self_left, Nat.mod_eq_of_lt h]

/-- the loop condition in terms of the gap -/
theorem goesOn_iff {s : VB R} {vi : PBd R} {top j : Nat} (hj : j < s.size) (h2 : 2 ≤ s.size) :
    goesOn s top vi j = true ↔ j < top ∧ gap (s.set (nxt s.size j) vi) (nxt s.size j) < 0 := by
  have hh := nxt_lt hj
  have hpr : prv s.size (nxt s.size j) = j := prv_nxt hj
  have hne : j ≠ nxt s.size j := by have := prv_ne h2 hh; rw [hpr] at this; exact this
  unfold goesOn gap
  rw [norm_succ hj, show (s.set (nxt s.size j) vi).size = s.size from rfl, hpr, set_v, set_v, if_pos rfl, if_neg hne]
  show (decide (j < top) && decide ((s.v j).coord > vi.coord + if nxt s.size j = s.lo then s.dim else 0)) = true ↔
    j < top ∧ vi.coord + (if nxt s.size j = s.lo then s.dim else 0) - (s.v j).coord < 0
  simp only [Bool.and_eq_true, decide_eq_true_eq, sub_neg, gt_iff_lt]

theorem travel_inv {L X hb n} {dim : R} {C : PCx R} {dc : Bool} {k a : Nat} (hka : k < a + n) (ha1 : k < n → a = 0) (ha2 : n ≤ k → a + n = k + 1) :
    ∀ (fuel : Nat) (s : VB R) (vi : PBd R) (j H : Nat) (I : PInts) (K : Key → Int) (s' : VB R) (I' : PInts),
    j < n → s.size = n → a ≤ H → H ≤ k → H % n = nxt n j →
    St L X hb n dim (s.set (nxt n j) vi) K →
    (∀ r, a < r → r < H → 0 ≤ gap (s.set (nxt n j) vi) (r % n)) →
    (∀ r, H < r → r ≤ k → 0 ≤ gap (s.set (nxt n j) vi) (r % n)) →
    (a < H → H < k → 0 ≤ gap (s.set (nxt n j) vi) (H % n) + gap (s.set (nxt n j) vi) ((H + 1) % n)) →
    (∀ r, H < r → r ≤ k → pkey ((s.set (nxt n j) vi).v (r % n)) ≠ partner (pkey vi)) →
    travel C dc k fuel s vi j I = some (.ok (s', I')) →
    ∃ K', St L X hb n dim s' K' ∧ (∀ r, a < r → r ≤ k → 0 ≤ gap s' (r % n)) ∧ Grow C hb I I' ∧
      (dc = true → Tracks n L hb C K K' I') := by
  intro fuel
  induction fuel with
  | zero => intro s vi j H I K s' I' _ _ _ _ _ _ _ _ _ _ h; cases h
  | succ fuel ih =>
    intro s vi j H I K s' I' hj hs haH hHk hH S g1 g2 g3 g4 h
    have h2 : 2 ≤ n := by have := S.rep.two; rw [S.size] at this; exact this
    have hn : 0 < n := by omega
    have hh : nxt n j < n := nxt_lt hj
    have hpr : prv n (nxt n j) = j := prv_nxt hj
    have hne : j ≠ nxt n j := by have := prv_ne h2 hh; rw [hpr] at this; exact this
    have k1 : (s.set (nxt n j) vi).v (nxt n j) = vi := by rw [set_v, if_pos rfl]
    have k2 : (s.set (nxt n j) vi).v j = s.v j := by rw [set_v, if_neg hne]
    have hgo := goesOn_iff (vi := vi) (top := k) (show j < s.size by omega) (by omega)
    rw [hs] at hgo
    -- the travelling bound never reaches the lower end of the window in the second round
    have hlow : n ≤ k → a < H := by
      intro hk
      rcases Nat.lt_or_eq_of_le haH with c | c
      · exact c
      · exfalso
        have hm := S.rep.mate (nxt n j) (by rw [S.size]; exact hh)
        obtain ⟨q, hq, eq⟩ := hm
        rw [S.size] at hq
        rw [k1] at eq
        have hqn : q ≠ a % n := by
          rw [c, hH]; intro e
          rw [e, k1] at eq
          have := congrArg Prod.snd eq
          simp [partner] at this
        obtain ⟨r, r1, r2, r3⟩ := exists_res hq hqn
        have := ha2 hk
        exact g4 r (by omega) (by omega) (by rw [r3]; exact eq)
    unfold travel at h
    by_cases hg : goesOn s k vi j = true
    · rw [if_pos hg] at h
      obtain ⟨hjk, hgap⟩ := hgo.1 hg
      have haH' : a < H := by
        by_cases hk : k < n
        · have := ha1 hk
          rcases Nat.eq_zero_or_pos H with c | c
          · exfalso
            rw [c, Nat.zero_mod] at hH
            rw [← hH] at hpr
            unfold prv at hpr; rw [if_pos rfl] at hpr
            omega
          · omega
        · exact hlow (by omega)
      cases hp : passPeri C dc I vi (s.v j) with
      | throws => rw [hp] at h; cases h
      | ub => rw [hp] at h; cases h
      | ok I1 =>
        rw [hp] at h
        simp only [obind] at h
        obtain ⟨h3, hpart, S', ex, ekey, esz, m, em⟩ := S.step hj hs hgap
        obtain ⟨gr, tr⟩ := step_tracks hj hs S hgap hp
        have hjj : nxt n (prv n j) = j := nxt_prv hj
        rw [hs, norm_pred hj] at h
        have hHm : (H - 1) % n = j := by rw [mod_pred hn (by omega), hH, hpr]
        have hszF : (s.set (nxt n j) vi).size = n := hs
        -- gaps after the move
        have e1 := ex.gh
        have e2 := ex.gj (by rw [hszF]; exact h3)
        have e3 := ex.gn (by rw [hszF]; exact h3)
        have e4 := ex.go
        rw [hszF, hpr] at e2
        rw [hszF] at e3
        rw [hszF, hpr] at e4
        have hHn : (H + 1) % n = nxt n (nxt n j) := by rw [mod_succ hn, hH]
        have res := ih (shiftUp s vi j).1 (shiftUp s vi j).2 (prv n j) (H - 1) I1 (swapK K (pkey vi) (pkey (s.v j))) s' I'
          (prv_lt hj) esz (by omega) (by omega) (by rw [hjj, hHm]) (by rw [hjj]; exact S')
          (by
            intro r r1 r2
            rw [hjj, e4 (r % n) (Nat.mod_lt _ hn)
              (by rw [← hH]; intro e; have := mod_inj e (by omega) (by omega); omega)
              (by rw [← hHm]; intro e; have := mod_inj e (by omega) (by omega); omega)
              (by rw [← hHn]; intro e; have := mod_inj e (by omega) (by omega); omega)]
            exact g1 r r1 (by omega))
          (by
            intro r r1 r2
            rw [hjj]
            by_cases c1 : r = H
            · rw [c1, hH, e1]; linarith
            · by_cases c2 : r = H + 1
              · rw [c2, hHn, e3]
                have := g3 haH' (by omega)
                rw [hH, hHn] at this
                linarith
              · rw [e4 (r % n) (Nat.mod_lt _ hn)
                  (by rw [← hH]; intro e; have := mod_inj e (by omega) (by omega); omega)
                  (by rw [← hHm]; intro e; have := mod_inj e (by omega) (by omega); omega)
                  (by rw [← hHn]; intro e; have := mod_inj e (by omega) (by omega); omega)]
                exact g2 r (by omega) r2)
          (by
            intro r1 r2
            have hHH : H - 1 + 1 = H := by omega
            rw [hjj, hHH, hHm, hH, e1, e2]
            have := g1 (H - 1) r1 (by omega)
            rw [hHm] at this
            linarith)
          (by
            intro r r1 r2
            rw [hjj, ekey]
            by_cases c1 : r = H
            · rw [c1, hH, ex.kh, hszF, hpr, k2]; exact hpart
            · rw [ex.ko (r % n) (by rw [hszF]; exact Nat.mod_lt _ hn)
                (by rw [← hH]; intro e; have := mod_inj e (by omega) (by omega); omega)
                (by rw [hszF, hpr, ← hHm]; intro e; have := mod_inj e (by omega) (by omega); omega)]
              exact g4 r (by omega) r2) h
        obtain ⟨K', f1, f2, f3, f4⟩ := res
        refine ⟨K', f1, f2, gr.trans f3, fun hdc => ?_⟩
        exact (tr hdc).trans (fun κ κ' m h1 h2 e => S'.modInj h1 h2 e) f3 (f4 hdc)
    · rw [if_neg hg] at h
      rw [hs, norm_succ hj] at h
      cases h
      refine ⟨K, S, ?_, .refl, fun _ => .refl⟩
      intro r r1 r2
      rcases Nat.lt_trichotomy r H with c | c | c
      · exact g1 r r1 c
      · rw [c, hH]
        by_contra hc
        apply hg
        rw [hgo]
        refine ⟨?_, not_le.1 hc⟩
        by_cases hk : n ≤ k
        · omega
        · have : j = H - 1 := by
            have : (H - 1) % n = j := by rw [mod_pred hn (by omega), hH, hpr]
            rw [Nat.mod_eq_of_lt (by omega)] at this; omega
          omega
      · exact g2 r c r2

/-- moving the split over a bound below the cell -/
theorem switchLo_st {L X hb n} {dim : R} {s : VB R} {K} (S : St L X hb n dim s K) (i : Nat) :
    St L X hb n dim (switchLo s i) K ∧ SameGaps s (switchLo s i) := by
  unfold switchLo
  split
  · rename_i hc
    have hu := S.rep.switchUp (G := { s.set i { s.v i with period := (s.v i).period - 1, coord := (s.v i).coord + s.dim } with
        lo := norm s.size (s.lo + 1) }) rfl rfl (norm_succ S.rep.lo) (by
      intro r hr
      show (if r = i then _ else s.v r) = _
      rw [← hc.1]
      by_cases a : r = i
      · rw [if_pos a, if_pos a, a]
      · rw [if_neg a, if_neg a])
    have sg := S.rep.sameGaps hu.1 rfl rfl hu.2
    refine ⟨⟨hu.1, S.size, S.sdim, ?_, S.paired⟩, sg⟩
    intro κ
    rw [← S.keys κ]
    constructor
    · rintro ⟨r, hr, e⟩; exact ⟨r, hr, (hu.2 r hr).symm.trans e⟩
    · rintro ⟨r, hr, e⟩; exact ⟨r, hr, (hu.2 r hr).trans e⟩
  · exact ⟨S, .refl s⟩

theorem set_self {s : VB R} {k : Nat} : s.set k (s.v k) = s := by
  unfold VB.set
  congr
  funext i
  split
  · rename_i e; rw [e]
  · rfl

theorem inOrder_iff {s : VB R} {i : Nat} (hi : i < s.size) : inOrder s i = true ↔ 0 ≤ gap s i := by
  unfold inOrder gap
  rw [norm_pred hi, decide_eq_true_eq, sub_nonneg]

theorem outer_inv {L X hb n} {dim : R} (hd : 0 ≤ dim) {C : PCx R} {dc : Bool} :
    ∀ (fuel : Nat) (s : VB R) (k : Nat) (I : PInts) (K : Key → Int) (s' : VB R) (I' : PInts),
    St L X hb n dim s K → (∀ r, 0 < r → k < r + n → r < k → 0 ≤ gap s (r % n)) →
    outer C dc fuel s k I = some (.ok (s', I')) →
    ∃ K', St L X hb n dim s' K' ∧ (∀ r, r < n → 0 ≤ gap s' r) ∧ Grow C hb I I' ∧ (dc = true → Tracks n L hb C K K' I') := by
  intro fuel
  induction fuel with
  | zero => intro s k I K s' I' _ _ h; cases h
  | succ fuel ih =>
    intro s k I K s' I' S g h
    have h2 : 2 ≤ n := by have := S.rep.two; rw [S.size] at this; exact this
    have hn : 0 < n := by omega
    unfold outer at h
    rw [norm_nat, S.size] at h
    by_cases hg : outerGoesOn s k = true
    · rw [if_pos hg] at h
      dsimp only at h
      obtain ⟨S1, sg⟩ := switchLo_st S (k % n)
      have hi : k % n < n := Nat.mod_lt _ hn
      have g' : ∀ r, 0 < r → k < r + n → r < k → 0 ≤ gap (switchLo s (k % n)) (r % n) := by
        intro r r1 r2 r3
        rw [sg.gap _ (by rw [S.size]; exact Nat.mod_lt _ hn)]
        exact g r r1 r2 r3
      generalize hsw : switchLo s (k % n) = s1 at h S1 g'
      have hs1 : s1.size = n := S1.size
      by_cases ho : inOrder s1 (k % n) = true
      · rw [if_pos ho] at h
        have ho' := (inOrder_iff (by omega)).1 ho
        exact ih s1 (k + 1) I K s' I' S1 (by
          intro r r1 r2 r3
          by_cases c : r = k
          · rw [c]; exact ho'
          · exact g' r r1 (by omega) (by omega)) h
      · rw [if_neg ho, hs1, norm_pred hi] at h
        cases ht : travel C dc k fuel s1 (s1.v (k % n)) (prv n (k % n)) I with
        | none => rw [ht] at h; cases h
        | some r =>
          cases r with
          | throws => rw [ht] at h; cases h
          | ub => rw [ht] at h; cases h
          | ok r =>
            obtain ⟨s2, I2⟩ := r
            rw [ht] at h
            simp only [obind] at h
            have hnp : nxt n (prv n (k % n)) = k % n := nxt_prv hi
            have hset : s1.set (nxt n (prv n (k % n))) (s1.v (k % n)) = s1 := by rw [hnp]; exact set_self
            have res := travel_inv (L := L) (X := X) (hb := hb) (n := n) (dim := dim) (C := C) (dc := dc) (k := k)
              (a := if k < n then 0 else k + 1 - n) (by split <;> omega) (fun h => by rw [if_pos h]) (fun h => by rw [if_neg (by omega)]; omega)
              fuel s1 (s1.v (k % n)) (prv n (k % n)) k I K s2 I2 (prv_lt hi) hs1 (by split <;> omega) (Nat.le_refl _) (by rw [hnp])
              (by rw [hset]; exact S1)
              (by
                intro r r1 r2
                rw [hset]
                split at r1
                · exact g' r (by omega) (by omega) r2
                · exact g' r (by omega) (by omega) r2)
              (by intro r r1 r2; omega)
              (by intro _ h; omega)
              (by intro r r1 r2; omega) ht
            obtain ⟨K2, S2, gg, gr, tr⟩ := res
            obtain ⟨K', f1, f2, f3, f4⟩ := ih s2 (k + 1) I2 K2 s' I' S2 (by
              intro r r1 r2 r3
              refine gg r ?_ (by omega)
              split <;> omega) h
            refine ⟨K', f1, f2, gr.trans f3, fun hdc => ?_⟩
            exact (tr hdc).trans (fun κ κ' m h1 h2 e => S2.modInj h1 h2 e) f3 (f4 hdc)
    · rw [if_neg hg] at h
      cases h
      refine ⟨K, S, ?_, .refl, fun _ => .refl⟩
      unfold outerGoesOn at hg
      simp only [Bool.or_eq_true, decide_eq_true_eq, not_or, not_lt] at hg
      obtain ⟨hk, hc⟩ := hg
      rw [S.size] at hk
      have hkp : norm s.size ((k : Int) - 1) = prv n (k % n) := by
        have : ((k : Int) - 1) = ((k - 1 : Nat) : Int) := by omega
        rw [this, norm_nat, S.size, mod_pred hn (by omega)]
      rw [norm_nat, hkp, S.size] at hc
      have gk : 0 ≤ gap s (k % n) := by
        unfold gap
        rw [S.size]
        split
        · rw [S.sdim]; linarith
        · linarith
      intro r hr
      by_cases c : r = k % n
      · rw [c]; exact gk
      · obtain ⟨q, q1, q2, q3⟩ := exists_res (a := k - n) hr (by
          intro e; apply c; rw [e]
          have : k = k - n + n := by omega
          conv_rhs => rw [this]
          rw [Nat.add_mod_right])
        rw [← q3]
        exact g q (by omega) (by omega) (by omega)

/-- the last loop only moves the split -/
theorem clampTop_inv {L X hb n} {dim : R} :
    ∀ (fuel : Nat) (s : VB R) (K : Key → Int) (s' : VB R), St L X hb n dim s K → (∀ r, r < n → 0 ≤ gap s r) →
    clampTop fuel s (norm s.size (s.lo - 1)) = some (.ok s') → St L X hb n dim s' K ∧ (∀ r, r < n → 0 ≤ gap s' r) := by
  intro fuel
  induction fuel with
  | zero => intro s K s' _ _ h; cases h
  | succ fuel ih =>
    intro s K s' S g h
    rw [norm_pred S.rep.lo] at h
    unfold clampTop at h
    split at h
    · have hu := S.rep.switchDown (G := { s.set (prv s.size s.lo) { s.v (prv s.size s.lo) with
          period := (s.v (prv s.size s.lo)).period + 1, coord := (s.v (prv s.size s.lo)).coord - s.dim } with lo := prv s.size s.lo })
        rfl rfl rfl (by
        intro r hr
        show (if r = prv s.size s.lo then _ else s.v r) = _
        by_cases a : r = prv s.size s.lo
        · rw [if_pos a, if_pos a, a]
        · rw [if_neg a, if_neg a])
      have sg := S.rep.sameGaps hu.1 rfl rfl hu.2
      refine ih _ K s' ⟨hu.1, S.size, S.sdim, ?_, S.paired⟩ (fun r hr => ?_) h
      · intro κ
        rw [← S.keys κ]
        constructor
        · rintro ⟨r, hr, e⟩; exact ⟨r, hr, (hu.2 r hr).symm.trans e⟩
        · rintro ⟨r, hr, e⟩; exact ⟨r, hr, (hu.2 r hr).trans e⟩
      · rw [sg.gap r (by rw [S.size]; exact hr)]; exact g r hr
    · cases h; exact ⟨S, g⟩

/-- the whole sort -/
theorem sort_inv {L X hb n} {dim : R} (hd : 0 ≤ dim) {C : PCx R} {dc : Bool} {fuel : Nat} {s s' : VB R} {I I' : PInts} {K : Key → Int}
    (S : St L X hb n dim s K) (h : insertionSortPeri C dc fuel s I = some (.ok (s', I'))) :
    ∃ K', St L X hb n dim s' K' ∧ (∀ r, r < n → 0 ≤ gap s' r) ∧ Grow C hb I I' ∧ (dc = true → Tracks n L hb C K K' I') := by
  unfold insertionSortPeri at h
  rw [if_neg (by have := S.rep.two; omega)] at h
  cases ho : outer C dc fuel s 0 I with
  | none => rw [ho] at h; cases h
  | some r =>
    cases r with
    | throws => rw [ho] at h; cases h
    | ub => rw [ho] at h; cases h
    | ok r =>
      obtain ⟨s1, I1⟩ := r
      rw [ho] at h
      simp only [obind] at h
      obtain ⟨K', S1, g1, gr, tr⟩ := outer_inv hd fuel s 0 I K s1 I1 S (by intro r r1 r2 r3; omega) ho
      cases hc : clampTop fuel s1 (norm s1.size (s1.lo - 1)) with
      | none => rw [hc] at h; cases h
      | some r =>
        cases r with
        | throws => rw [hc] at h; cases h
        | ub => rw [hc] at h; cases h
        | ok s2 =>
          rw [hc] at h
          cases h
          obtain ⟨S2, g2⟩ := clampTop_inv fuel s1 K' s' S1 g1 hc
          exact ⟨K', S2, g2, gr, tr⟩

/-- if all gaps are at least zero, the sequence is in the order of the coordinates -/
theorem St.sorted {L X hb n} {dim : R} {s : VB R} {K} (S : St L X hb n dim s K) (g : ∀ r, r < n → 0 ≤ gap s r) :
    ∀ (D : Nat) (κ κ' : Key) (m : Int), L κ → L κ' → K κ' + n * m = K κ + D + 1 → X κ ≤ X κ' + m * dim := by
  intro D
  have h2 : 2 ≤ n := by have := S.rep.two; rw [S.size] at this; exact this
  induction D with
  | zero =>
    intro κ κ' m h1 h2 e
    obtain ⟨r, hr, rfl⟩ := (S.keys _).2 h1
    have hn := nxt_lt hr
    obtain ⟨m1, e1, gg⟩ := S.rep.adj hn
    rw [prv_nxt hr] at e1 gg
    have g0 := g _ (by rw [← S.size]; exact hn)
    have : κ' = pkey (s.v (nxt s.size r)) := S.modInj (m := -m1 - m) h2 (S.in (by rw [← S.size]; exact hn)) (by
      rw [e1, S.size]; push_cast at e; linarith)
    subst this
    have : m = -m1 := mul_size_inj (n := n) (by omega) (by rw [S.size] at e1 e; rw [e1] at e; push_cast at e; linarith)
    subst this
    rw [gg, S.sdim] at g0
    push_cast; linarith
  | succ D ih =>
    intro κ κ' m h1 h2 e
    obtain ⟨r, hr, rfl⟩ := (S.keys _).2 h1
    have hn := nxt_lt hr
    obtain ⟨m1, e1, gg⟩ := S.rep.adj hn
    rw [prv_nxt hr] at e1 gg
    have g0 := g _ (by rw [← S.size]; exact hn)
    have := ih (pkey (s.v (nxt s.size r))) κ' (m + m1) (S.in (by rw [← S.size]; exact hn)) h2 (by
      rw [S.size] at e1; push_cast at e; rw [S.size, mul_add, e1]; linarith)
    rw [gg, S.sdim] at g0
    push_cast at this; linarith

theorem St.le_of_lt {L X hb n} {dim : R} {s : VB R} {K} (S : St L X hb n dim s K) (g : ∀ r, r < n → 0 ≤ gap s r) {κ κ' : Key} {m : Int}
    (h1 : L κ) (h2 : L κ') (e : K κ < K κ' + n * m) : X κ ≤ X κ' + m * dim :=
  S.sorted g (K κ' + n * m - K κ - 1).toNat κ κ' m h1 h2 (by omega)

theorem St.lt_of_lt {L X hb n} {dim : R} {s : VB R} {K} (S : St L X hb n dim s K) (g : ∀ r, r < n → 0 ≤ gap s r) {κ κ' : Key} {m : Int}
    (h1 : L κ) (h2 : L κ') (e : X κ < X κ' + m * dim) : K κ < K κ' + n * m := by
  have hn : 2 ≤ n := by have := S.rep.two; rw [S.size] at this; exact this
  rcases Int.lt_trichotomy (K κ) (K κ' + n * m) with c | c | c
  · exact c
  · have := S.modInj h1 h2 c
    subst this
    have : m = 0 := mul_size_inj (n := n) hn (by linarith)
    subst this
    simp at e
  · have := S.le_of_lt g (κ := κ') (κ' := κ) (m := -m) h2 h1 (by linarith)
    push_cast at this
    linarith

end Verif.Peri
