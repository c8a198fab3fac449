import Verif.Peri.Lift
/-!
# The periodic insertion sort orders the sequence

Helper lemmas: each move of the inner loop exchanges neighbours of the sequence of `Lift.lean`; the loops keep their invariants; at
the end all gaps are at least zero.
-/
namespace Verif.Peri
open Verif Verif.Collide

variable {R : Type} [Field R] [LinearOrder R] [IsStrictOrderedRing R] [FloorRing R]

set_option linter.unusedSectionVars false

/-- keys and gaps are the same -/
structure SameGaps (F G : VB R) : Prop where
  size : G.size = F.size
  dim : G.dim = F.dim
  key : ∀ r, r < F.size → pkey (G.v r) = pkey (F.v r)
  gap : ∀ r, r < F.size → gap G r = gap F r

theorem SameGaps.refl (F : VB R) : SameGaps F F := ⟨rfl, rfl, fun _ _ => rfl, fun _ _ => rfl⟩

theorem Exch.right {F G G' : VB R} {h : Nat} (hh : h < F.size) (e : Exch F G h) (s : SameGaps G G') : Exch F G' h := by
  have hj := prv_lt hh
  have hn := nxt_lt hh
  have es := e.size
  exact ⟨s.size.trans es, s.dim.trans e.dim, (s.key _ (by omega)).trans e.kj, (s.key _ (by omega)).trans e.kh,
    fun r hr a b => (s.key r (by omega)).trans (e.ko r hr a b), (s.gap _ (by omega)).trans e.gh,
    fun h3 => (s.gap _ (by omega)).trans (e.gj h3), fun h3 => (s.gap _ (by omega)).trans (e.gn h3),
    fun r hr a b c => (s.gap r (by omega)).trans (e.go r hr a b c)⟩

theorem Exch.left {F F' G : VB R} {h : Nat} (hh : h < F.size) (s : SameGaps F F') (e : Exch F' G h) : Exch F G h := by
  have hj := prv_lt hh
  have hn := nxt_lt hh
  have ss := s.size
  refine ⟨e.size.trans ss, e.dim.trans s.dim, ?_, ?_, ?_, ?_, ?_, ?_, ?_⟩
  · have := e.kj; rw [ss, s.key _ hh] at this; exact this
  · have := e.kh; rw [ss, s.key _ hj] at this; exact this
  · intro r hr a b
    have := e.ko r (by omega) a (by rw [ss]; exact b)
    rw [s.key r hr] at this; exact this
  · rw [e.gh, s.gap _ hh]
  · intro h3
    have := e.gj (by omega); rw [ss, s.gap _ hh, s.gap _ hj] at this; exact this
  · intro h3
    have := e.gn (by omega); rw [ss, s.gap _ hh, s.gap _ hn] at this; exact this
  · intro r hr a b c
    have := e.go r (by omega) a (by rw [ss]; exact b) (by rw [ss]; exact c)
    rw [s.gap r hr] at this; exact this

theorem Rep.sameGaps {F G : VB R} {K X hb} (h : Rep F K X hb) (h' : Rep G K X hb) (hn : G.size = F.size) (hd : G.dim = F.dim)
    (hk : ∀ r, r < F.size → pkey (G.v r) = pkey (F.v r)) : SameGaps F G :=
  ⟨hn, hd, hk, fun _ hr => h.gap_same h' hn hd hk hr⟩

/-- one move of the inner loop -/
theorem shift_step {s : VB R} {vi : PBd R} {j : Nat} {K X hb} (hj : j < s.size) (H : Rep (s.set (nxt s.size j) vi) K X hb) :
    Rep ((shiftUp s vi j).1.set j (shiftUp s vi j).2) (swapK K (pkey vi) (pkey (s.v j))) X hb ∧
    Exch (s.set (nxt s.size j) vi) ((shiftUp s vi j).1.set j (shiftUp s vi j).2) (nxt s.size j) ∧
    pkey (shiftUp s vi j).2 = pkey vi ∧ (shiftUp s vi j).1.size = s.size := by
  have h2 : 2 ≤ s.size := H.two
  have hll : s.lo < s.size := H.lo
  have hh := nxt_lt hj
  have hp : prv s.size (nxt s.size j) = j := prv_nxt hj
  have hne : j ≠ nxt s.size j := by have := prv_ne h2 hh; rw [hp] at this; exact this
  have k1 : (s.set (nxt s.size j) vi).v (nxt s.size j) = vi := by rw [set_v, if_pos rfl]
  have k2 : (s.set (nxt s.size j) vi).v j = s.v j := by rw [set_v, if_neg hne]
  unfold shiftUp
  rw [norm_succ hj]
  by_cases hA : j = s.lo ∧ vi.coord < 0
  · dsimp only
    rw [if_pos hA]
    dsimp only
    let G0 : VB R := { s with v := fun r => if r = j then vi else if r = nxt s.size j then s.v j else s.v r }
    have hs := H.swap (h := nxt s.size j) hh (by rw [show (s.set (nxt s.size j) vi).lo = s.lo from rfl, ← hA.1]; exact hne)
      (G := G0) rfl rfl rfl (by
        intro r hr
        show (if r = j then vi else if r = nxt s.size j then s.v j else s.v r) = _
        rw [show (s.set (nxt s.size j) vi).size = s.size from rfl, hp, k1, k2]
        by_cases a : r = j
        · rw [if_pos a, if_pos a]
        · rw [if_neg a, if_neg a]
          by_cases b : r = nxt s.size j
          · rw [if_pos b, if_pos b]
          · rw [if_neg b, if_neg b, set_v, if_neg b])
    rw [show (s.set (nxt s.size j) vi).size = s.size from rfl, hp, k1, k2] at hs
    have hu := hs.1.switchUp (G := ({ s.set (nxt s.size j) (s.v j) with lo := norm s.size ((s.lo : Int) + 1) } : VB R).set j
      { vi with period := vi.period - 1, coord := vi.coord + s.dim }) rfl rfl
      (by
        show norm s.size ((s.lo : Int) + 1) = nxt s.size s.lo
        exact norm_succ hll)
      (by
        intro r hr
        show (if r = j then _ else if r = nxt s.size j then s.v j else s.v r) =
          if r = s.lo then { (if r = j then vi else if r = nxt s.size j then s.v j else s.v r) with
            period := (if r = j then vi else if r = nxt s.size j then s.v j else s.v r).period - 1,
            coord := (if r = j then vi else if r = nxt s.size j then s.v j else s.v r).coord + s.dim }
          else (if r = j then vi else if r = nxt s.size j then s.v j else s.v r)
        rw [← hA.1]
        by_cases a : r = j
        · simp only [if_pos a]
        · simp only [if_neg a])
    refine ⟨hu.1, ?_, rfl, rfl⟩
    exact Exch.right hh hs.2 (hs.1.sameGaps hu.1 rfl rfl hu.2)
  · dsimp only
    rw [if_neg hA]
    by_cases hB : nxt s.size j = s.lo
    · rw [if_pos hB]
      dsimp only
      let F0 : VB R := { s with
        v := fun r => if r = nxt s.size j then vi else if r = j then { s.v j with period := (s.v j).period + 1, coord := (s.v j).coord - s.dim } else s.v r
        lo := j }
      have hs := H.switchDown (G := F0) rfl rfl (by
          show j = prv s.size s.lo
          rw [← hB, hp]) (by
          intro r hr
          show (if r = nxt s.size j then vi else if r = j then _ else s.v r) =
            if r = prv s.size s.lo then { (if r = nxt s.size j then vi else s.v r) with
              period := (if r = nxt s.size j then vi else s.v r).period + 1,
              coord := (if r = nxt s.size j then vi else s.v r).coord - s.dim }
            else (if r = nxt s.size j then vi else s.v r)
          rw [← hB, hp]
          by_cases a : r = j
          · subst a
            simp only [if_neg hne, if_true]
          · simp only [if_neg a])
      have f1 : F0.v (nxt s.size j) = vi := by show (if _ then _ else _) = _; rw [if_pos rfl]
      have f2 : F0.v j = { s.v j with period := (s.v j).period + 1, coord := (s.v j).coord - s.dim } := by
        show (if j = nxt s.size j then _ else if j = j then _ else _) = _
        rw [if_neg hne, if_pos rfl]
      have hw := hs.1.swap (h := nxt s.size j) hh (show j ≠ _ from hne)
        (G := ({ s.set (nxt s.size j) { s.v j with period := (s.v j).period + 1, coord := (s.v j).coord - s.dim } with
          lo := norm s.size ((s.lo : Int) - 1) } : VB R).set j vi) rfl rfl
        (by
          show norm s.size ((s.lo : Int) - 1) = j
          rw [norm_pred hll, ← hB, hp])
        (by
          intro r hr
          show (if r = j then vi else if r = nxt s.size j then _ else s.v r) = _
          rw [show F0.size = s.size from rfl, hp, f1, f2]
          by_cases a : r = j
          · rw [if_pos a, if_pos a]
          · rw [if_neg a, if_neg a]
            by_cases b : r = nxt s.size j
            · rw [if_pos b, if_pos b]
            · rw [if_neg b, if_neg b]
              show _ = if r = nxt s.size j then _ else if r = j then _ else s.v r
              rw [if_neg b, if_neg a])
      rw [show F0.size = s.size from rfl, hp, f1, f2] at hw
      refine ⟨hw.1, ?_, by simp, rfl⟩
      exact Exch.left hh (H.sameGaps hs.1 rfl rfl hs.2) hw.2
    · rw [if_neg hB]
      dsimp only
      have hs := H.swap (h := nxt s.size j) hh (Ne.symm hB) (G := (s.set (nxt s.size j) (s.v j)).set j vi) rfl rfl rfl (by
        intro r hr
        show (if r = j then vi else if r = nxt s.size j then s.v j else s.v r) = _
        rw [show (s.set (nxt s.size j) vi).size = s.size from rfl, hp, k1, k2]
        by_cases a : r = j
        · rw [if_pos a, if_pos a]
        · rw [if_neg a, if_neg a]
          by_cases b : r = nxt s.size j
          · rw [if_pos b, if_pos b]
          · rw [if_neg b, if_neg b, set_v, if_neg b])
      rw [show (s.set (nxt s.size j) vi).size = s.size from rfl, hp, k1, k2] at hs
      exact ⟨hs.1, hs.2, rfl, rfl⟩

/-! ## Interactions made on the way -/

/-- `I'` is `I` with new interactions appended one by one, each for a pair not yet in, overlapping and allowed to collide -/
inductive Grow (C : PCx R) (hb : Nat → Bool) (I : PInts) : PInts → Prop
  | refl : Grow C hb I I
  | add {I' : PInts} {i j : Nat} {d : Fin 3 → Int} (h : Grow C hb I I') (ne : i ≠ j) (b1 : hb i = true) (b2 : hb j = true) (new : pfound I' i j = false)
      (ov : overlapPeri C i j = .ok (some d)) (may : mayCollide C.S.avoid C.S.sub (fltOf C.S i) (fltOf C.S j) = .ok true) :
      Grow C hb I (I' ++ [⟨i, j, false, d⟩])

theorem Grow.trans {C : PCx R} {hb : Nat → Bool} {I I' I'' : PInts} (h : Grow C hb I I') (h' : Grow C hb I' I'') : Grow C hb I I'' := by
  induction h' with
  | refl => exact h
  | add _ ne b1 b2 new ov may ih => exact ih.add ne b1 b2 new ov may

theorem pfound_append {I J : PInts} {i j : Nat} : pfound (I ++ J) i j = (pfound I i j || pfound J i j) := by
  unfold pfound; rw [List.any_append]

theorem Grow.mono {C : PCx R} {hb : Nat → Bool} {I I' : PInts} (h : Grow C hb I I') {i j : Nat} (hf : pfound I i j = true) : pfound I' i j = true := by
  induction h with
  | refl => exact hf
  | add _ _ _ _ _ _ _ ih => rw [pfound_append, ih]; rfl

/-- the pair has been dealt with: it is in, or it does not overlap, or it may not collide -/
def Rec (C : PCx R) (I : PInts) (i j : Nat) : Prop :=
  pfound I i j = true ∨ overlapPeri C i j = .ok none ∨ mayCollide C.S.avoid C.S.sub (fltOf C.S i) (fltOf C.S j) = .ok false

theorem Rec.mono {C : PCx R} {hb : Nat → Bool} {I I' : PInts} (h : Grow C hb I I') {i j : Nat} (hr : Rec C I i j) : Rec C I' i j := by
  rcases hr with hr | hr
  · exact Or.inl (h.mono hr)
  · exact Or.inr hr

theorem is_self (i j : Nat) (d : Fin 3 → Int) (b : Bool) : PEnt.is ⟨i, j, b, d⟩ i j = true := by
  unfold PEnt.is; simp

theorem handle_ok {C : PCx R} {hb : Nat → Bool} {I I' : PInts} {i j : Nat} (ne : i ≠ j) (b1 : hb i = true) (b2 : hb j = true) (h : handlePeri C I i j = .ok I') : Grow C hb I I' ∧ Rec C I' i j := by
  unfold handlePeri at h
  split at h
  · rename_i hf; cases h; exact ⟨.refl, Or.inl hf⟩
  · rename_i hf
    cases ho : overlapPeri C i j with
    | throws => rw [ho] at h; cases h
    | ub => rw [ho] at h; cases h
    | ok r =>
      rw [ho] at h
      cases r with
      | none => simp only [Res.bind_ok] at h; cases h; exact ⟨.refl, Or.inr (Or.inl ho)⟩
      | some d =>
        simp only [Res.bind_ok] at h
        cases hm : mayCollide C.S.avoid C.S.sub (fltOf C.S i) (fltOf C.S j) with
        | throws => rw [hm] at h; cases h
        | ub => rw [hm] at h; cases h
        | ok b =>
          rw [hm] at h
          cases b with
          | true =>
            simp only [Res.bind_ok] at h; cases h
            refine ⟨Grow.refl.add ne b1 b2 (by simpa using hf) ho hm, Or.inl ?_⟩
            rw [pfound_append]
            unfold pfound
            simp [is_self]
          | false => simp only [Res.bind_ok] at h; cases h; exact ⟨.refl, Or.inr (Or.inr hm)⟩

/-- every pair whose lower bound came from above to below an image of the upper bound has been dealt with -/
def Tracks (n : Nat) (L : Key → Prop) (hb : Nat → Bool) (C : PCx R) (K K' : Key → Int) (I' : PInts) : Prop :=
  ∀ i j (m : Int), i ≠ j → hb i = true → hb j = true → L (i, true) → L (j, false) →
    K (j, false) + n * m < K (i, true) → K' (i, true) < K' (j, false) + n * m → Rec C I' i j

/-! ## The two bounds of one body -/

/-- the bounds of a body are in order and less than a whole turn apart, in the sequence and in space -/
def Paired (n : Nat) (L : Key → Prop) (K : Key → Int) (X : Key → R) (dim : R) : Prop :=
  ∀ i, L (i, true) → K (i, true) < K (i, false) ∧ K (i, false) < K (i, true) + n ∧ X (i, true) ≤ X (i, false) ∧
    X (i, false) ≤ X (i, true) + dim

/-- what holds for the list throughout the sort -/
structure St (L : Key → Prop) (X : Key → R) (hb : Nat → Bool) (n : Nat) (dim : R) (F : VB R) (K : Key → Int) : Prop where
  rep : Rep F K X hb
  size : F.size = n
  sdim : F.dim = dim
  keys : ∀ κ, InList F κ ↔ L κ
  paired : Paired n L K X dim

theorem St.in {L X hb n dim} {F : VB R} {K} (S : St L X hb n dim F K) {r : Nat} (hr : r < n) : L (pkey (F.v r)) :=
  (S.keys _).1 ⟨r, by rw [S.size]; exact hr, rfl⟩

theorem St.modInj {L X hb n dim} {F : VB R} {K} (S : St L X hb n dim F K) {κ κ' : Key} (h1 : L κ) (h2 : L κ') {m : Int}
    (e : K κ = K κ' + n * m) : κ = κ' :=
  S.rep.modInj ((S.keys _).2 h1) ((S.keys _).2 h2) (by rw [S.size]; exact e)

theorem St.mate {L X hb n dim} {F : VB R} {K} (S : St L X hb n dim F K) {κ : Key} (h : L κ) : L (partner κ) := by
  obtain ⟨r, hr, rfl⟩ := (S.keys _).2 h
  obtain ⟨r', hr', e⟩ := S.rep.mate r hr
  exact (S.keys _).1 ⟨r', hr', e⟩

theorem mul_cases {n : Nat} {m : Int} (hn : 0 < n) : m ≤ -2 ∧ (n : Int) * m ≤ -2 * n ∨ m = -1 ∨ m = 0 ∨ 1 ≤ m ∧ (n : Int) ≤ n * m := by
  have hn' : (0 : Int) < n := by omega
  by_cases h1 : m ≤ -2
  · left; exact ⟨h1, by nlinarith⟩
  · by_cases h2 : 1 ≤ m
    · right; right; right; exact ⟨h2, by nlinarith⟩
    · omega

/-- the two bounds of a body are never out of order -/
theorem St.no_inv {L X hb n dim} {F : VB R} {K} (S : St L X hb n dim F K) {r : Nat} (hr : r < n)
    (hp : pkey (F.v (prv n r)) = partner (pkey (F.v r))) : 0 ≤ gap F r := by
  have hs := S.size
  have hr' : r < F.size := by omega
  obtain ⟨m, e, hg⟩ := S.rep.adj hr'
  rw [hs] at e hg
  rw [hp] at e hg
  have hn : 0 < n := by omega
  have hL := S.in hr
  rw [hg, S.sdim]
  rcases hk : pkey (F.v r) with ⟨i, b⟩
  rw [hk] at e hL
  cases b with
  | true =>
    simp only [partner, Bool.not_true] at e ⊢
    obtain ⟨p1, p2, p3, p4⟩ := S.paired i hL
    rcases mul_cases (m := m) hn with ⟨_, c⟩ | rfl | rfl | ⟨_, c⟩
    · omega
    · push_cast; linarith
    · omega
    · omega
  | false =>
    simp only [partner, Bool.not_false] at e ⊢
    have hL' := S.mate hL
    obtain ⟨p1, p2, p3, p4⟩ := S.paired i hL'
    rcases mul_cases (m := m) hn with ⟨_, c⟩ | rfl | rfl | ⟨_, c⟩
    · omega
    · omega
    · push_cast; linarith
    · omega

/-- exchanging bounds of different bodies -/
theorem St.swap_paired {L X hb n dim} {F : VB R} {K} (S : St L X hb n dim F K) {u w : Key} (hu : L u) (hw : L w) {m : Int}
    (e : K u = K w + 1 + n * m) (hne : u ≠ w) (hp : w ≠ partner u) : Paired n L (swapK K u w) X dim := by
  intro i hi
  obtain ⟨p1, p2, p3, p4⟩ := S.paired i hi
  have hi' : L (i, false) := S.mate hi
  refine ⟨?_, ?_, p3, p4⟩
  · unfold swapK
    by_cases a1 : (i, true) = u
    · have b1 : (i, false) ≠ u := by rw [← a1]; simp
      have b2 : (i, false) ≠ w := by intro h; apply hp; rw [← h, ← a1]; rfl
      rw [if_pos a1, if_neg b1, if_neg b2, ← a1]; omega
    · by_cases a2 : (i, true) = w
      · have b1 : (i, false) ≠ u := by intro h; apply hp; rw [← h, ← a2]; rfl
        have b2 : (i, false) ≠ w := by rw [← a2]; simp
        rw [if_neg a1, if_pos a2, if_neg b1, if_neg b2, ← a2]
        rcases Int.lt_or_eq_of_le (show K (i, true) + 1 ≤ K (i, false) by omega) with h | h
        · exact h
        · exact absurd (S.modInj (m := m) hu hi' (by rw [← h, a2]; exact e)) (Ne.symm b1)
      · rw [if_neg a1, if_neg a2]
        by_cases b1 : (i, false) = u
        · rw [if_pos b1, ← b1]
          rcases Int.lt_or_eq_of_le (show K (i, true) ≤ K (i, false) - 1 by omega) with h | h
          · exact h
          · refine absurd (S.modInj (m := m) hi hw ?_) a2
            rw [h, b1, e]; ring
        · rw [if_neg b1]
          by_cases b2 : (i, false) = w
          · rw [if_pos b2, ← b2]; omega
          · rw [if_neg b2]; exact p1
  · unfold swapK
    by_cases a1 : (i, true) = u
    · have b1 : (i, false) ≠ u := by rw [← a1]; simp
      have b2 : (i, false) ≠ w := by intro h; apply hp; rw [← h, ← a1]; rfl
      rw [if_pos a1, if_neg b1, if_neg b2, ← a1]
      rcases Int.lt_or_eq_of_le (show K (i, false) ≤ K (i, true) - 1 + n by omega) with h | h
      · exact h
      · refine absurd (S.modInj (m := m + 1) hi' hw ?_) b2
        rw [h, a1, e]; ring
    · by_cases a2 : (i, true) = w
      · have b1 : (i, false) ≠ u := by intro h; apply hp; rw [← h, ← a2]; rfl
        have b2 : (i, false) ≠ w := by rw [← a2]; simp
        rw [if_neg a1, if_pos a2, if_neg b1, if_neg b2, ← a2]; omega
      · rw [if_neg a1, if_neg a2]
        by_cases b1 : (i, false) = u
        · rw [if_pos b1, ← b1]; omega
        · rw [if_neg b1]
          by_cases b2 : (i, false) = w
          · rw [if_pos b2, ← b2]
            rcases Int.lt_or_eq_of_le (show K (i, false) + 1 ≤ K (i, true) + n by omega) with h | h
            · exact h
            · refine absurd (S.modInj (m := m + 1) hu hi ?_) (Ne.symm a1)
              have : K w = K (i, false) := by rw [b2]
              rw [e, this]; linarith
          · rw [if_neg b2]; exact p2

theorem Exch.keys {F G : VB R} {h : Nat} (hh : h < F.size) (e : Exch F G h) (κ : Key) : InList G κ ↔ InList F κ := by
  have hj := prv_lt hh
  have es := e.size
  constructor
  · rintro ⟨r, hr, rfl⟩
    by_cases a1 : r = h
    · exact ⟨prv F.size h, hj, by rw [a1, e.kh]⟩
    · by_cases a2 : r = prv F.size h
      · exact ⟨h, hh, by rw [a2, e.kj]⟩
      · exact ⟨r, by omega, (e.ko r (by omega) a1 a2).symm⟩
  · rintro ⟨r, hr, rfl⟩
    by_cases a1 : r = h
    · exact ⟨prv F.size h, by omega, by rw [a1, e.kj]⟩
    · by_cases a2 : r = prv F.size h
      · exact ⟨h, by omega, by rw [a2, e.kh]⟩
      · exact ⟨r, by omega, e.ko r hr a1 a2⟩

/-- the travelling bound passes its neighbour if they are out of order -/
theorem St.step {L X hb n dim} {s : VB R} {vi : PBd R} {j : Nat} {K} (hj : j < n) (hs : s.size = n)
    (S : St L X hb n dim (s.set (nxt n j) vi) K) (hg : gap (s.set (nxt n j) vi) (nxt n j) < 0) :
    3 ≤ n ∧ pkey (s.v j) ≠ partner (pkey vi) ∧
    St L X hb n dim ((shiftUp s vi j).1.set j (shiftUp s vi j).2) (swapK K (pkey vi) (pkey (s.v j))) ∧
    Exch (s.set (nxt n j) vi) ((shiftUp s vi j).1.set j (shiftUp s vi j).2) (nxt n j) ∧
    pkey (shiftUp s vi j).2 = pkey vi ∧ (shiftUp s vi j).1.size = n ∧ ∃ m : Int, K (pkey vi) = K (pkey (s.v j)) + 1 + n * m := by
  subst hs
  have h2 : 2 ≤ s.size := S.rep.two
  have hh := nxt_lt hj
  have hp : prv s.size (nxt s.size j) = j := prv_nxt hj
  have hne : j ≠ nxt s.size j := by have := prv_ne h2 hh; rw [hp] at this; exact this
  have k1 : (s.set (nxt s.size j) vi).v (nxt s.size j) = vi := by rw [set_v, if_pos rfl]
  have k2 : (s.set (nxt s.size j) vi).v j = s.v j := by rw [set_v, if_neg hne]
  obtain ⟨r1, r2, r3, r4⟩ := shift_step hj S.rep
  have hpart : pkey (s.v j) ≠ partner (pkey vi) := by
    intro e
    have := S.no_inv hh (by rw [hp, k1, k2]; exact e)
    exact absurd this (not_le.2 hg)
  have hu : L (pkey vi) := by have := S.in hh; rw [k1] at this; exact this
  have hw : L (pkey (s.v j)) := by have := S.in hj; rw [k2] at this; exact this
  obtain ⟨m, em, _⟩ := S.rep.adj (r := nxt s.size j) hh
  rw [show (s.set (nxt s.size j) vi).size = s.size from rfl, hp, k1, k2] at em
  have hnw : pkey vi ≠ pkey (s.v j) := by
    intro e
    have := S.rep.inj (nxt s.size j) j hh hj (by rw [k1, k2]; exact e)
    exact hne this.symm
  refine ⟨?_, hpart, ⟨r1, ?_, ?_, ?_, ?_⟩, r2, r3, r4, m, em⟩
  · by_contra hc
    obtain ⟨q, hq, eq⟩ := S.rep.mate (nxt s.size j) hh
    rw [k1] at eq
    have hq' : q < s.size := hq
    by_cases a : q = nxt s.size j
    · rw [a, k1] at eq
      have := congrArg Prod.snd eq
      simp [partner] at this
    · have : q = j := by omega
      rw [this, k2] at eq
      exact hpart eq
  · exact r4
  · rw [r2.dim]; exact S.sdim
  · intro κ; rw [Exch.keys (F := s.set (nxt s.size j) vi) hh r2 κ]; exact S.keys κ
  · exact S.swap_paired hu hw em hnw hpart

/-- what one move deals with -/
theorem step_tracks {L X hb n dim} {s : VB R} {vi : PBd R} {j : Nat} {K} (hj : j < n) (hs : s.size = n)
    (S : St L X hb n dim (s.set (nxt n j) vi) K) (hg : gap (s.set (nxt n j) vi) (nxt n j) < 0) {C : PCx R} {I I' : PInts} {dc : Bool}
    (hp : passPeri C dc I vi (s.v j) = .ok I') :
    Grow C hb I I' ∧ (dc = true → Tracks n L hb C K (swapK K (pkey vi) (pkey (s.v j))) I') := by
  have hS := S.step hj hs hg
  subst hs
  have h2 : 2 ≤ s.size := S.rep.two
  have hh := nxt_lt hj
  have hpr : prv s.size (nxt s.size j) = j := prv_nxt hj
  have hne : j ≠ nxt s.size j := by have := prv_ne h2 hh; rw [hpr] at this; exact this
  have k1 : (s.set (nxt s.size j) vi).v (nxt s.size j) = vi := by rw [set_v, if_pos rfl]
  have k2 : (s.set (nxt s.size j) vi).v j = s.v j := by rw [set_v, if_neg hne]
  unfold passPeri at hp
  constructor
  · split at hp
    · rename_i hc
      simp only [Bool.and_eq_true, decide_eq_true_eq] at hc
      obtain ⟨⟨⟨_, c1⟩, c2⟩, c3⟩ := hc
      have b1 := S.rep.box (nxt s.size j) hh
      have b2 := S.rep.box j hj
      rw [k1, c1] at b1
      rw [k2, c2] at b2
      exact (handle_ok c3 b1.symm b2.symm hp).1
    · cases hp; exact .refl
  · intro hdc a b m hab ha hb' La Lb k3 k4
    obtain ⟨_, _, S', _⟩ := hS
    have hu : (a, true) = pkey vi := by
      by_contra hc
      unfold swapK at k4
      rw [if_neg hc] at k4
      by_cases c1 : (a, true) = pkey (s.v j)
      · rw [if_pos c1, ← c1] at k4
        by_cases c2 : (b, false) = pkey vi
        · rw [if_pos c2, ← c2] at k4; omega
        · have c3 : (b, false) ≠ (a, true) := by simp
          rw [if_neg c2, if_neg c3] at k4; omega
      · rw [if_neg c1] at k4
        by_cases c2 : (b, false) = pkey vi
        · rw [if_pos c2, ← c2] at k4; omega
        · rw [if_neg c2] at k4
          by_cases c3 : (b, false) = pkey (s.v j)
          · rw [if_pos c3, ← c3] at k4; omega
          · rw [if_neg c3] at k4; omega
    have hw : (b, false) = pkey (s.v j) := by
      by_contra hc
      have c2 : (b, false) ≠ pkey vi := by rw [← hu]; simp
      unfold swapK at k4
      rw [if_pos hu, if_neg c2, if_neg hc, ← hu] at k4
      have := S.modInj (κ := (a, true)) (κ' := (b, false)) (m := m)
      rcases Int.lt_trichotomy (K (a, true) - 1) (K (b, false) + s.size * m) with h | h | h
      · omega
      · have hS'mod := S'.modInj (κ := (a, true)) (κ' := (b, false)) (m := m) La Lb (by
          unfold swapK
          rw [if_pos hu, if_neg c2, if_neg hc, ← hu]; exact h)
        simp at hS'mod
      · omega
    have e1 : vi.isMin = true := (congrArg Prod.snd hu).symm
    have e2 : (s.v j).isMin = false := (congrArg Prod.snd hw).symm
    have e3 : vi.id = a := (congrArg Prod.fst hu).symm
    have e4 : (s.v j).id = b := (congrArg Prod.fst hw).symm
    have b1 := S.rep.box (nxt s.size j) hh
    have b2 := S.rep.box j hj
    rw [k1, e3, ha] at b1
    rw [k2, e4, hb'] at b2
    rw [if_pos (by rw [e1, e2, hdc, b1, b2, e3, e4]; simp [hab]), e3, e4] at hp
    exact (handle_ok hab ha hb' hp).2

end Verif.Peri
