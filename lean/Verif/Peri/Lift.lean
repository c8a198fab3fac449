import Verif.Peri.Model
import Mathlib.Tactic.Linarith
import Mathlib.Tactic.NormNum
import Mathlib.Tactic.Ring
import Mathlib.Tactic.Push
import Mathlib.Tactic.SplitIfs
/-!
# The periodic list of bounds as an infinite sequence

The circular list with its split index stands for a two-sided infinite sequence of bounds, the images of the `n` bounds under all
shifts by whole periods.  `Rep F K X`: the bound with key `κ` is at position `K κ` of the sequence and has the coordinate `X κ` in
space; its image `m` periods further is at position `K κ + n m`.  Every move of the sort exchanges neighbours in the sequence.
-/
namespace Verif.Peri
open Verif Verif.Collide

variable {R : Type} [Field R] [LinearOrder R] [IsStrictOrderedRing R] [FloorRing R]

set_option linter.unusedSectionVars false

abbrev Key := Nat × Bool

/-- which bound this is -/
def pkey (x : PBd R) : Key := (x.id, x.isMin)

/-- the other bound of the same body -/
def partner (κ : Key) : Key := (κ.1, !κ.2)

/-- cyclic predecessor and successor -/
def prv (n r : Nat) : Nat := if r = 0 then n - 1 else r - 1
def nxt (n r : Nat) : Nat := if r + 1 = n then 0 else r + 1

theorem norm_nat {n : Nat} (k : Nat) : norm n (k : Int) = k % n := by
  unfold norm
  rw [if_neg (by omega)]
  have : ((k : Int) % (n : Int)) = ((k % n : Nat) : Int) := by norm_cast
  rw [this, Int.toNat_natCast]

theorem norm_lt {n r : Nat} (h : r < n) : norm n (r : Int) = r := by rw [norm_nat, Nat.mod_eq_of_lt h]

theorem norm_succ {n r : Nat} (h : r < n) : norm n ((r : Int) + 1) = nxt n r := by
  have : ((r : Int) + 1) = ((r + 1 : Nat) : Int) := by norm_cast
  rw [this, norm_nat]
  unfold nxt
  split
  · rename_i e; rw [e, Nat.mod_self]
  · exact Nat.mod_eq_of_lt (by omega)

theorem norm_pred {n r : Nat} (h : r < n) : norm n ((r : Int) - 1) = prv n r := by
  unfold prv
  split
  · rename_i e; subst e
    unfold norm
    rw [if_pos (by omega)]
    have : ((0 : Nat) : Int) - 1 + (n : Int) = ((n - 1 : Nat) : Int) := by omega
    rw [this]
    have : ((n - 1 : Nat) : Int) % (n : Int) = ((n - 1 : Nat) : Int) := Int.emod_eq_of_lt (by omega) (by omega)
    rw [this]; simp
  · have : ((r : Int) - 1) = ((r - 1 : Nat) : Int) := by omega
    rw [this]; exact norm_lt (by omega)

theorem prv_lt {n r : Nat} (h : r < n) : prv n r < n := by unfold prv; split <;> omega
theorem nxt_lt {n r : Nat} (h : r < n) : nxt n r < n := by unfold nxt; split <;> omega
theorem prv_nxt {n r : Nat} (h : r < n) : prv n (nxt n r) = r := by
  unfold nxt
  split
  · unfold prv; rw [if_pos rfl]; omega
  · unfold prv; rw [if_neg (by omega)]; omega
theorem nxt_prv {n r : Nat} (h : r < n) : nxt n (prv n r) = r := by
  unfold prv
  split
  · unfold nxt; rw [if_pos (by omega)]; omega
  · unfold nxt; rw [if_neg (by omega)]; omega
theorem prv_ne {n r : Nat} (hn : 2 ≤ n) (h : r < n) : prv n r ≠ r := by unfold prv; split <;> omega

/-- position in the sequence of the bound at index `r`, up to a common multiple of `n` -/
def lift (F : VB R) (r : Nat) : Int := r + F.size * ((F.v r).period + if r < F.lo then 1 else 0)

/-- coordinate in space -/
def space (F : VB R) (r : Nat) : R := (F.v r).coord + (F.v r).period * F.dim

/-- distance in the sequence from the bound before index `r` to the one at `r` -/
def gap (F : VB R) (r : Nat) : R := (F.v r).coord + (if r = F.lo then F.dim else 0) - (F.v (prv F.size r)).coord

/-- the list stands for the sequence with positions `K` and coordinates `X`; `hb` tells which bodies have a box -/
structure Rep (F : VB R) (K : Key → Int) (X : Key → R) (hb : Nat → Bool) : Prop where
  two : 2 ≤ F.size
  lo : F.lo < F.size
  inj : ∀ r r', r < F.size → r' < F.size → pkey (F.v r) = pkey (F.v r') → r = r'
  mate : ∀ r, r < F.size → ∃ r', r' < F.size ∧ pkey (F.v r') = partner (pkey (F.v r))
  pos : ∃ g : Int, ∀ r, r < F.size → K (pkey (F.v r)) = lift F r + F.size * g
  crd : ∀ r, r < F.size → X (pkey (F.v r)) = space F r
  box : ∀ r, r < F.size → (F.v r).hasBB = hb (F.v r).id

/-- the keys of the list -/
def InList (F : VB R) (κ : Key) : Prop := ∃ r, r < F.size ∧ pkey (F.v r) = κ

theorem Rep.mod {F : VB R} {K X hb} (h : Rep F K X hb) {r : Nat} (hr : r < F.size) : K (pkey (F.v r)) % F.size = r := by
  obtain ⟨g, hg⟩ := h.pos
  rw [hg r hr]
  unfold lift
  rw [add_assoc, ← mul_add, Int.add_mul_emod_self_left]
  exact Int.emod_eq_of_lt (by omega) (by omega)

/-- positions of different bounds differ modulo `n` -/
theorem Rep.modInj {F : VB R} {K X hb} (h : Rep F K X hb) {κ κ' : Key} (h1 : InList F κ) (h2 : InList F κ') {m : Int}
    (e : K κ = K κ' + F.size * m) : κ = κ' := by
  obtain ⟨r, hr, rfl⟩ := h1
  obtain ⟨r', hr', rfl⟩ := h2
  have e1 := h.mod hr
  have e2 := h.mod hr'
  rw [e, Int.add_mul_emod_self_left, e2] at e1
  have : r' = r := by omega
  rw [this]

/-- neighbours in the list are neighbours in the sequence -/
theorem Rep.adj {F : VB R} {K X hb} (h : Rep F K X hb) {r : Nat} (hr : r < F.size) :
    ∃ m : Int, K (pkey (F.v r)) = K (pkey (F.v (prv F.size r))) + 1 + F.size * m ∧
      gap F r = X (pkey (F.v r)) - X (pkey (F.v (prv F.size r))) - m * F.dim := by
  obtain ⟨g, hg⟩ := h.pos
  have hp := prv_lt hr
  have h2 := h.two
  have hl := h.lo
  rw [hg r hr, hg _ hp, h.crd r hr, h.crd _ hp]
  unfold lift space gap
  by_cases r0 : r = 0
  · have e : prv F.size r = F.size - 1 := by unfold prv; rw [if_pos r0]
    rw [e]
    by_cases l0 : F.lo = 0
    · refine ⟨(F.v r).period - (F.v (F.size - 1)).period - 1, ?_, ?_⟩
      · rw [if_neg (by omega), if_neg (by omega), r0]
        push_cast [Nat.cast_sub (by omega : 1 ≤ F.size)]; ring
      · rw [if_pos (by omega)]; push_cast; ring
    · refine ⟨(F.v r).period - (F.v (F.size - 1)).period, ?_, ?_⟩
      · rw [if_pos (by omega), if_neg (by omega), r0]
        push_cast [Nat.cast_sub (by omega : 1 ≤ F.size)]; ring
      · rw [if_neg (by omega)]; push_cast; ring
  · have e : prv F.size r = r - 1 := by unfold prv; rw [if_neg r0]
    rw [e]
    by_cases c1 : r = F.lo
    · refine ⟨(F.v r).period - (F.v (r - 1)).period - 1, ?_, ?_⟩
      · rw [if_neg (by omega), if_pos (by omega)]
        push_cast [Nat.cast_sub (by omega : 1 ≤ r)]; ring
      · rw [if_pos c1]; push_cast; ring
    · refine ⟨(F.v r).period - (F.v (r - 1)).period, ?_, ?_⟩
      · by_cases c2 : r < F.lo
        · rw [if_pos c2, if_pos (by omega)]
          push_cast [Nat.cast_sub (by omega : 1 ≤ r)]; ring
        · rw [if_neg c2, if_neg (by omega)]
          push_cast [Nat.cast_sub (by omega : 1 ≤ r)]; ring
      · rw [if_neg c1]; push_cast; ring

theorem mul_size_inj {n : Nat} (hn : 2 ≤ n) {a b : Int} (h : (n : Int) * a = n * b) : a = b :=
  Int.eq_of_mul_eq_mul_left (by omega) h

/-- the gap is known from the positions and coordinates -/
theorem Rep.gap_eq {F : VB R} {K X hb} (h : Rep F K X hb) {r : Nat} (hr : r < F.size) {m : Int}
    (e : K (pkey (F.v r)) = K (pkey (F.v (prv F.size r))) + 1 + F.size * m) :
    gap F r = X (pkey (F.v r)) - X (pkey (F.v (prv F.size r))) - m * F.dim := by
  obtain ⟨m', e', hm⟩ := h.adj hr
  have : m' = m := mul_size_inj h.two (by linarith)
  rw [hm, this]

/-- lists with the same keys at the same places that stand for the same sequence have the same gaps -/
theorem Rep.gap_same {F G : VB R} {K X hb} (h : Rep F K X hb) (h' : Rep G K X hb) (hn : G.size = F.size) (hd : G.dim = F.dim)
    (hk : ∀ r, r < F.size → pkey (G.v r) = pkey (F.v r)) {r : Nat} (hr : r < F.size) : gap G r = gap F r := by
  obtain ⟨m, e, hm⟩ := h.adj hr
  have hp := prv_lt hr
  have e2 : K (pkey (G.v r)) = K (pkey (G.v (prv G.size r))) + 1 + G.size * m := by rw [hn, hk r hr, hk _ hp]; exact e
  rw [h'.gap_eq (by omega) e2, hm, hn, hk r hr, hk _ hp, hd]

/-! ## Operations that leave the sequence alone -/

theorem set_v {F : VB R} {k r : Nat} {x : PBd R} : (F.set k x).v r = if r = k then x else F.v r := rfl

/-- moving the split up over the bound at the split -/
theorem Rep.switchUp {F : VB R} {K X hb} (h : Rep F K X hb) {G : VB R} (hn : G.size = F.size) (hd : G.dim = F.dim)
    (hlo : G.lo = nxt F.size F.lo)
    (hv : ∀ r, r < F.size → G.v r = if r = F.lo then { F.v r with period := (F.v r).period - 1, coord := (F.v r).coord + F.dim } else F.v r) :
    Rep G K X hb ∧ ∀ r, r < F.size → pkey (G.v r) = pkey (F.v r) := by
  have hk : ∀ r, r < F.size → pkey (G.v r) = pkey (F.v r) := by
    intro r hr; rw [hv r hr]; split <;> rfl
  have hl := h.lo
  refine ⟨⟨by rw [hn]; exact h.two, by rw [hn, hlo]; exact nxt_lt hl, ?_, ?_, ?_, ?_, ?_⟩, hk⟩
  · intro r r' hr hr' e
    rw [hn] at hr hr'
    rw [hk r hr, hk r' hr'] at e
    exact h.inj r r' hr hr' e
  · intro r hr
    rw [hn] at hr ⊢
    obtain ⟨r', h1, h2⟩ := h.mate r hr
    exact ⟨r', h1, by rw [hk r' h1, hk r hr]; exact h2⟩
  · obtain ⟨g, hg⟩ := h.pos
    rw [hn]
    by_cases hw : F.lo + 1 = F.size
    · refine ⟨g + 1, fun r hr => ?_⟩
      rw [hk r hr, hg r hr]
      unfold lift
      rw [hn, hv r hr, hlo]
      have e : nxt F.size F.lo = 0 := by unfold nxt; rw [if_pos hw]
      rw [e]
      by_cases c : r = F.lo
      · rw [if_pos c, if_neg (by omega), if_neg (by omega)]; push_cast; ring
      · rw [if_neg c, if_pos (by omega), if_neg (by omega)]; push_cast; ring
    · refine ⟨g, fun r hr => ?_⟩
      rw [hk r hr, hg r hr]
      unfold lift
      rw [hn, hv r hr, hlo]
      have e : nxt F.size F.lo = F.lo + 1 := by unfold nxt; rw [if_neg hw]
      rw [e]
      by_cases c : r = F.lo
      · rw [if_pos c, if_neg (by omega), if_pos (by omega)]; push_cast; ring
      · rw [if_neg c]
        by_cases c2 : r < F.lo
        · rw [if_pos c2, if_pos (by omega)]
        · rw [if_neg c2, if_neg (by omega)]
  · intro r hr
    rw [hn] at hr
    rw [hk r hr, h.crd r hr]
    unfold space
    rw [hv r hr, hd]
    split
    · push_cast; ring
    · rfl
  · intro r hr
    rw [hn] at hr
    rw [hv r hr]
    split <;> exact h.box r hr

/-- moving the split down over the bound below the split -/
theorem Rep.switchDown {F : VB R} {K X hb} (h : Rep F K X hb) {G : VB R} (hn : G.size = F.size) (hd : G.dim = F.dim)
    (hlo : G.lo = prv F.size F.lo)
    (hv : ∀ r, r < F.size → G.v r = if r = prv F.size F.lo then { F.v r with period := (F.v r).period + 1, coord := (F.v r).coord - F.dim } else F.v r) :
    Rep G K X hb ∧ ∀ r, r < F.size → pkey (G.v r) = pkey (F.v r) := by
  have hk : ∀ r, r < F.size → pkey (G.v r) = pkey (F.v r) := by
    intro r hr; rw [hv r hr]; split <;> rfl
  have hl := h.lo
  have h2 := h.two
  refine ⟨⟨by rw [hn]; exact h.two, by rw [hn, hlo]; exact prv_lt hl, ?_, ?_, ?_, ?_, ?_⟩, hk⟩
  · intro r r' hr hr' e
    rw [hn] at hr hr'
    rw [hk r hr, hk r' hr'] at e
    exact h.inj r r' hr hr' e
  · intro r hr
    rw [hn] at hr ⊢
    obtain ⟨r', h1, h2⟩ := h.mate r hr
    exact ⟨r', h1, by rw [hk r' h1, hk r hr]; exact h2⟩
  · obtain ⟨g, hg⟩ := h.pos
    rw [hn]
    by_cases hw : F.lo = 0
    · refine ⟨g - 1, fun r hr => ?_⟩
      rw [hk r hr, hg r hr]
      unfold lift
      rw [hn, hv r hr, hlo]
      have e : prv F.size F.lo = F.size - 1 := by unfold prv; rw [if_pos hw]
      rw [e]
      by_cases c : r = F.size - 1
      · rw [if_pos c, if_neg (by omega), if_neg (by omega)]; push_cast; ring
      · rw [if_neg c, if_neg (by omega), if_pos (by omega)]; push_cast; ring
    · refine ⟨g, fun r hr => ?_⟩
      rw [hk r hr, hg r hr]
      unfold lift
      rw [hn, hv r hr, hlo]
      have e : prv F.size F.lo = F.lo - 1 := by unfold prv; rw [if_neg hw]
      rw [e]
      by_cases c : r = F.lo - 1
      · rw [if_pos c, if_pos (by omega), if_neg (by omega)]; push_cast; ring
      · rw [if_neg c]
        by_cases c2 : r < F.lo
        · rw [if_pos c2, if_pos (by omega)]
        · rw [if_neg c2, if_neg (by omega)]
  · intro r hr
    rw [hn] at hr
    rw [hk r hr, h.crd r hr]
    unfold space
    rw [hv r hr, hd]
    split
    · push_cast; ring
    · rfl
  · intro r hr
    rw [hn] at hr
    rw [hv r hr]
    split <;> exact h.box r hr

/-! ## Exchanging neighbours -/

/-- positions after the bounds `u` and `w` are exchanged, `u` having been next after an image of `w` -/
def swapK (K : Key → Int) (u w : Key) : Key → Int := fun κ => if κ = u then K u - 1 else if κ = w then K w + 1 else K κ

theorem Rep.ne {F : VB R} {K X hb} (h : Rep F K X hb) {r : Nat} (hr : r < F.size) : pkey (F.v r) ≠ pkey (F.v (prv F.size r)) := by
  intro e
  exact prv_ne h.two hr (h.inj _ _ hr (prv_lt hr) e).symm

/-- `G` is `F` with the bounds at `prv h` and `h` exchanged, as far as the order of the keys and the gaps are concerned -/
structure Exch (F G : VB R) (h : Nat) : Prop where
  size : G.size = F.size
  dim : G.dim = F.dim
  kj : pkey (G.v (prv F.size h)) = pkey (F.v h)
  kh : pkey (G.v h) = pkey (F.v (prv F.size h))
  ko : ∀ r, r < F.size → r ≠ h → r ≠ prv F.size h → pkey (G.v r) = pkey (F.v r)
  gh : gap G h = -gap F h
  gj : 3 ≤ F.size → gap G (prv F.size h) = gap F (prv F.size h) + gap F h
  gn : 3 ≤ F.size → gap G (nxt F.size h) = gap F (nxt F.size h) + gap F h
  go : ∀ r, r < F.size → r ≠ h → r ≠ prv F.size h → r ≠ nxt F.size h → gap G r = gap F r

/-- exchanging two neighbours away from the split -/
theorem Rep.swap {F : VB R} {K X hb} (H : Rep F K X hb) {h : Nat} (hh : h < F.size) (hl : F.lo ≠ h) {G : VB R}
    (hn : G.size = F.size) (hd : G.dim = F.dim) (hlo : G.lo = F.lo)
    (hv : ∀ r, r < F.size → G.v r = if r = prv F.size h then F.v h else if r = h then F.v (prv F.size h) else F.v r) :
    Rep G (swapK K (pkey (F.v h)) (pkey (F.v (prv F.size h)))) X hb ∧ Exch F G h := by
  have h2 := H.two
  have hj := prv_lt hh
  have hne := prv_ne h2 hh
  have hll := H.lo
  have vj : G.v (prv F.size h) = F.v h := by rw [hv _ hj, if_pos rfl]
  have vh : G.v h = F.v (prv F.size h) := by rw [hv _ hh, if_neg (Ne.symm hne), if_pos rfl]
  have vo : ∀ r, r < F.size → r ≠ h → r ≠ prv F.size h → G.v r = F.v r := by
    intro r hr h1 h2; rw [hv r hr, if_neg h2, if_neg h1]
  refine ⟨⟨by rw [hn]; exact h2, by rw [hn, hlo]; exact hll, ?_, ?_, ?_, ?_, ?_⟩, ⟨hn, hd, by rw [vj], by rw [vh], ?_, ?_, ?_, ?_, ?_⟩⟩
  · intro r r' hr hr' e
    rw [hn] at hr hr'
    rw [hv r hr, hv r' hr'] at e
    by_cases a1 : r = prv F.size h
    · rw [if_pos a1] at e
      by_cases b1 : r' = prv F.size h
      · rw [a1, b1]
      · rw [if_neg b1] at e
        by_cases b2 : r' = h
        · rw [if_pos b2] at e; exact absurd e (H.ne hh)
        · rw [if_neg b2] at e; exact absurd (H.inj _ _ hh hr' e).symm b2
    · rw [if_neg a1] at e
      by_cases a2 : r = h
      · rw [if_pos a2] at e
        by_cases b1 : r' = prv F.size h
        · rw [if_pos b1] at e; exact absurd e.symm (H.ne hh)
        · rw [if_neg b1] at e
          by_cases b2 : r' = h
          · rw [a2, b2]
          · rw [if_neg b2] at e; exact absurd (H.inj _ _ hj hr' e).symm b1
      · rw [if_neg a2] at e
        by_cases b1 : r' = prv F.size h
        · rw [if_pos b1] at e; exact absurd (H.inj _ _ hr hh e) a2
        · rw [if_neg b1] at e
          by_cases b2 : r' = h
          · rw [if_pos b2] at e; exact absurd (H.inj _ _ hr hj e) a1
          · rw [if_neg b2] at e; exact H.inj _ _ hr hr' e
  · have back : ∀ r, r < F.size → ∃ r', r' < F.size ∧ G.v r' = F.v r := by
      intro r hr
      by_cases a1 : r = h
      · exact ⟨prv F.size h, hj, by rw [vj, a1]⟩
      · by_cases a2 : r = prv F.size h
        · exact ⟨h, hh, by rw [vh, a2]⟩
        · exact ⟨r, hr, vo r hr a1 a2⟩
    intro r hr
    rw [hn] at hr ⊢
    have : ∃ q, q < F.size ∧ G.v r = F.v q := by
      by_cases a1 : r = h
      · exact ⟨prv F.size h, hj, by rw [a1, vh]⟩
      · by_cases a2 : r = prv F.size h
        · exact ⟨h, hh, by rw [a2, vj]⟩
        · exact ⟨r, hr, vo r hr a1 a2⟩
    obtain ⟨q, hq, e⟩ := this
    obtain ⟨q', hq', e'⟩ := H.mate q hq
    obtain ⟨r', hr', e2⟩ := back q' hq'
    exact ⟨r', hr', by rw [e2, e, e']⟩
  · obtain ⟨g, hg⟩ := H.pos
    refine ⟨g, fun r hr => ?_⟩
    rw [hn] at hr ⊢
    by_cases a1 : r = h
    · rw [a1, vh]
      unfold swapK
      rw [if_neg (Ne.symm (H.ne hh)), if_pos rfl, hg _ hj]
      unfold lift
      rw [vh, hn, hlo]
      by_cases h0 : h = 0
      · have e : prv F.size h = F.size - 1 := by unfold prv; rw [if_pos h0]
        rw [e, if_neg (by omega), if_pos (by omega), h0]
        push_cast [Nat.cast_sub (by omega : 1 ≤ F.size)]; ring
      · have e : prv F.size h = h - 1 := by unfold prv; rw [if_neg h0]
        rw [e]
        by_cases c : h < F.lo
        · rw [if_pos (by omega), if_pos c]; push_cast [Nat.cast_sub (by omega : 1 ≤ h)]; ring
        · rw [if_neg (by omega), if_neg c]; push_cast [Nat.cast_sub (by omega : 1 ≤ h)]; ring
    · by_cases a2 : r = prv F.size h
      · rw [a2, vj]
        unfold swapK
        rw [if_pos rfl, hg _ hh]
        unfold lift
        rw [vj, hn, hlo]
        by_cases h0 : h = 0
        · have e : prv F.size h = F.size - 1 := by unfold prv; rw [if_pos h0]
          rw [e, if_pos (by omega), if_neg (by omega), h0]
          push_cast [Nat.cast_sub (by omega : 1 ≤ F.size)]; ring
        · have e : prv F.size h = h - 1 := by unfold prv; rw [if_neg h0]
          rw [e]
          by_cases c : h < F.lo
          · rw [if_pos c, if_pos (by omega)]; push_cast [Nat.cast_sub (by omega : 1 ≤ h)]; ring
          · rw [if_neg c, if_neg (by omega)]; push_cast [Nat.cast_sub (by omega : 1 ≤ h)]; ring
      · rw [vo r hr a1 a2]
        unfold swapK
        rw [if_neg (fun e => a1 (H.inj _ _ hr hh e)), if_neg (fun e => a2 (H.inj _ _ hr hj e)), hg r hr]
        unfold lift
        rw [vo r hr a1 a2, hn, hlo]
  · intro r hr
    rw [hn] at hr
    unfold space
    rw [hd]
    by_cases a1 : r = h
    · rw [a1, vh]; exact H.crd _ hj
    · by_cases a2 : r = prv F.size h
      · rw [a2, vj]; exact H.crd _ hh
      · rw [vo r hr a1 a2]; exact H.crd r hr
  · intro r hr
    rw [hn] at hr
    by_cases a1 : r = h
    · rw [a1, vh]; exact H.box _ hj
    · by_cases a2 : r = prv F.size h
      · rw [a2, vj]; exact H.box _ hh
      · rw [vo r hr a1 a2]; exact H.box r hr
  · intro r hr a1 a2; rw [vo r hr a1 a2]
  · unfold gap; rw [hn, vh, vj, hlo, hd, if_neg (Ne.symm hl)]; ring
  · intro h3
    have p1 : prv F.size (prv F.size h) ≠ h := by unfold prv; split_ifs <;> omega
    have p2 : prv F.size (prv F.size h) ≠ prv F.size h := prv_ne h2 hj
    unfold gap; rw [hn, vj, hlo, vo _ (prv_lt hj) p1 p2, hd, if_neg (Ne.symm hl)]; ring
  · intro h3
    have p1 : nxt F.size h ≠ h := by unfold nxt; split <;> omega
    have p2 : nxt F.size h ≠ prv F.size h := by unfold nxt prv; split_ifs <;> omega
    unfold gap; rw [hn, vo _ (nxt_lt hh) p1 p2, prv_nxt hh, vh, hlo, hd, if_neg (Ne.symm hl)]; ring
  · intro r hr a1 a2 a3
    have p1 : prv F.size r ≠ h := by
      intro e; apply a3; rw [← e, nxt_prv hr]
    by_cases p2 : prv F.size r = prv F.size h
    · exact absurd (by rw [← nxt_prv hr, p2, nxt_prv hh]) a1
    · unfold gap; rw [hn, vo r hr a1 a2, vo _ (prv_lt hr) p1 p2, hlo, hd]

end Verif.Peri
