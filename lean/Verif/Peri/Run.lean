import Verif.Peri.Loop
import Verif.Peri.WrapProps
import Verif.Collide.Props
import Mathlib.Data.List.Nodup
import Mathlib.Data.List.Perm.Basic
/-!
# A run of the periodic collider

Helper lemmas: copying, the initial sort, the sweep, and what holds after a run.
-/
namespace Verif.Peri
open Verif Verif.Collide

variable {R : Type} [Field R] [LinearOrder R] [IsStrictOrderedRing R] [FloorRing R]

set_option linter.unusedSectionVars false

/-! ## Conditions on a run -/

/-- conditions on a run: there are bodies, they are in the container, the library sort sorts (and puts the lower bound of a body of no
extent first), the cell and the tolerance are sensible, boxes are at most half the cell and fewer than 2³¹ periods apart -/
structure AllowedP (P : PPar R) (S : Scn R) : Prop where
  some : 0 < S.n
  range : ∀ i, S.body i ≠ none → i < S.n
  perm : ∀ n v, ((List.range n).map (P.srt n v)).Perm ((List.range n).map v)
  sort : ∀ n v r r', r < r' → r' < n → (P.srt n v r).coord ≤ (P.srt n v r').coord
  ties : ∀ n v r r', r < r' → r' < n → (P.srt n v r).coord = (P.srt n v r').coord → (P.srt n v r).id = (P.srt n v r').id →
    (P.srt n v r).isMin = false → (P.srt n v r').isMin = false
  dim : ∀ a, 0 < P.dim a
  tol : 0 ≤ P.tol
  size : ∀ i lo hi, HasBox S i lo hi → ∀ a, lo a ≤ hi a ∧ hi a - lo a ≤ P.dim a / 2
  apart : ∀ i lo hi j lo' hi', HasBox S i lo hi → HasBox S j lo' hi' → ∀ a, |hi' a - hi a| < (2 ^ 31 - 2) * P.dim a

/-! ## Plumbing -/

theorem obind_ok {α β : Type} {r : Option (Res α)} {f : α → Option (Res β)} {b : β} (h : obind r f = some (.ok b)) :
    ∃ a, r = some (.ok a) ∧ f a = some (.ok b) := by
  cases r with
  | none => cases h
  | some r => cases r with
    | ok a => exact ⟨a, rfl, h⟩
    | throws => cases h
    | ub => cases h

theorem axes3_ok {I : Type} {f : Fin 3 → VB R → I → Option (Res (VB R × I))} {bb bb' : Fin 3 → VB R} {I0 I' : I}
    (h : axes3 f bb I0 = some (.ok (bb', I'))) :
    ∃ I1 I2, f 0 (bb 0) I0 = some (.ok (bb' 0, I1)) ∧ f 1 (bb 1) I1 = some (.ok (bb' 1, I2)) ∧ f 2 (bb 2) I2 = some (.ok (bb' 2, I')) := by
  unfold axes3 at h
  obtain ⟨⟨b0, I1⟩, e0, h⟩ := obind_ok h
  obtain ⟨⟨b1, I2⟩, e1, h⟩ := obind_ok h
  obtain ⟨⟨b2, I3⟩, e2, h⟩ := obind_ok h
  cases h
  exact ⟨I1, I2, e0, e1, e2⟩

theorem forall_fin3 {p : Fin 3 → Prop} (h0 : p 0) (h1 : p 1) (h2 : p 2) : ∀ a, p a := by
  intro a
  match a with
  | 0 => exact h0
  | 1 => exact h1
  | 2 => exact h2

theorem mapRes_ok {f : PBd R → Res (PBd R)} {n : Nat} {v v' : Nat → PBd R} (h : mapRes f n v = .ok v') :
    ∀ k, k < n → f (v k) = .ok (v' k) := by
  unfold mapRes at h
  split at h
  · rename_i hc
    cases h
    intro k hk
    dsimp only
    rw [if_pos hk]
    have := hc k hk
    cases e : f (v k) with
    | ok x => rfl
    | throws => rw [e] at this; cases this
    | ub => rw [e] at this; cases this
  · cases h

theorem copyAxis_ok {S : Scn R} {P : PPar R} {init : Bool} {a : Fin 3} {s s' : VB R} (h : copyAxis S P init a s = .ok s') :
    s'.size = s.size ∧ s'.lo = s.lo ∧ s'.dim = P.dim a ∧ ∀ k, k < 2 * S.n → copyPeri S a (P.dim a) init (s.v k) = .ok (s'.v k) := by
  unfold copyAxis at h
  split at h
  · cases e : mapRes (copyPeri S a (P.dim a) init) (2 * S.n) s.v with
    | ok v => rw [e] at h; cases h; exact ⟨rfl, rfl, rfl, mapRes_ok e⟩
    | throws => rw [e] at h; cases h
    | ub => rw [e] at h; cases h
  · cases h

/-- whether the body has a box -/
def hbOf (S : Scn R) (i : Nat) : Bool := ((S.body i).bind (·.bound)).isSome

/-- coordinates of the bounds in space; those of missing bodies are as before -/
def xNew (S : Scn R) (a : Fin 3) (X : Key → R) (κ : Key) : R :=
  match S.body κ.1 with
  | some b => spaceCoord b κ.2 a
  | none => X κ

/-- the keys for `n` bodies -/
def Ids (n : Nat) (κ : Key) : Prop := κ.1 < n

theorem xNew_paired {P : PPar R} {S : Scn R} (ha : AllowedP P S) (a : Fin 3) (X : Key → R) (i : Nat)
    (h : S.body i = none → X (i, true) ≤ X (i, false) ∧ X (i, false) ≤ X (i, true) + P.dim a) :
    xNew S a X (i, true) ≤ xNew S a X (i, false) ∧ xNew S a X (i, false) ≤ xNew S a X (i, true) + P.dim a := by
  have hd := ha.dim a
  unfold xNew
  cases e : S.body i with
  | none => exact h e
  | some b =>
    dsimp only
    unfold spaceCoord
    cases e2 : b.bound with
    | none => dsimp only; constructor <;> linarith
    | some bb =>
      obtain ⟨lo, hi⟩ := bb
      have := ha.size i lo hi ⟨b, e, e2⟩ a
      simp only [if_true]
      constructor
      · simpa using this.1
      · have h1 := this.2; simp; linarith

/-- copying in a regular run keeps the sequence and takes over the coordinates -/
theorem copy_st {P : PPar R} {S : Scn R} (ha : AllowedP P S) {a : Fin 3} {X : Key → R} {hb : Nat → Bool} {dim : R} {s s' : VB R} {K : Key → Int}
    (St0 : St (Ids S.n) X hb (2 * S.n) dim s K) (hp : (∀ i, i < S.n → S.body i ≠ none) ∨ P.dim a = dim)
    (h : copyAxis S P false a s = .ok s') : St (Ids S.n) (xNew S a X) (hbOf S) (2 * S.n) (P.dim a) s' K := by
  obtain ⟨h1, h2, h3, h4⟩ := copyAxis_ok h
  have hsz := St0.size
  have hv : ∀ r, r < 2 * S.n → (s'.v r).period = (s.v r).period ∧ pkey (s'.v r) = pkey (s.v r) ∧ (s'.v r).hasBB = hbOf S (s'.v r).id ∧
      xNew S a X (pkey (s'.v r)) = (s'.v r).coord + (s'.v r).period * P.dim a := by
    intro r hr
    have hc := h4 r hr
    unfold copyPeri at hc
    cases e : S.body (s.v r).id with
    | none =>
      rw [e] at hc
      dsimp only at hc
      generalize s'.v r = y at hc ⊢
      cases hc
      refine ⟨rfl, rfl, ?_, ?_⟩
      · show false = hbOf S (s.v r).id
        unfold hbOf; rw [e]; rfl
      · show xNew S a X (pkey (s.v r)) = (s.v r).coord + (s.v r).period * P.dim a
        unfold xNew
        have : (pkey (s.v r)).1 = (s.v r).id := rfl
        rw [this, e]
        dsimp only
        have hx := St0.rep.crd r (by omega)
        unfold space at hx
        rw [hx, St0.sdim]
        rcases hp with hp | hp
        · exact absurd e (hp _ (St0.in hr))
        · rw [hp]
    | some b =>
      rw [e] at hc
      dsimp only at hc
      rw [if_neg (by simp)] at hc
      generalize s'.v r = y at hc ⊢
      cases hc
      refine ⟨rfl, rfl, ?_, ?_⟩
      · show b.bound.isSome = hbOf S (s.v r).id
        unfold hbOf; rw [e]; rfl
      · show xNew S a X (pkey (s.v r)) = spaceCoord b (s.v r).isMin a - P.dim a * (s.v r).period + (s.v r).period * P.dim a
        unfold xNew
        have : (pkey (s.v r)).1 = (s.v r).id := rfl
        rw [this, e]
        have : (pkey (s.v r)).2 = (s.v r).isMin := rfl
        rw [this]
        ring
  have hkk : ∀ κ, InList s' κ ↔ InList s κ := by
    intro κ
    constructor
    · rintro ⟨r, hr, e⟩
      exact ⟨r, by omega, (hv r (by omega)).2.1.symm.trans e⟩
    · rintro ⟨r, hr, e⟩
      exact ⟨r, by omega, (hv r (by omega)).2.1.trans e⟩
  refine ⟨⟨by rw [h1]; exact St0.rep.two, by rw [h1, h2]; exact St0.rep.lo, ?_, ?_, ?_, ?_, ?_⟩, h1.trans hsz, h3, ?_, ?_⟩
  · intro r r' hr hr' e
    rw [(hv r (by omega)).2.1, (hv r' (by omega)).2.1] at e
    exact St0.rep.inj r r' (by omega) (by omega) e
  · intro r hr
    obtain ⟨r', hr', e⟩ := St0.rep.mate r (by omega)
    exact ⟨r', by omega, by rw [(hv r (by omega)).2.1, (hv r' (by omega)).2.1]; exact e⟩
  · obtain ⟨g, hg⟩ := St0.rep.pos
    refine ⟨g, fun r hr => ?_⟩
    rw [(hv r (by omega)).2.1, hg r (by omega)]
    unfold lift
    rw [(hv r (by omega)).1, h1, h2]
  · intro r hr
    unfold space
    rw [h3]
    exact (hv r (by omega)).2.2.2
  · intro r hr
    exact (hv r (by omega)).2.2.1
  · intro κ; rw [hkk, St0.keys]
  · intro i hi
    obtain ⟨p1, p2, p3, p4⟩ := St0.paired i hi
    refine ⟨p1, p2, ?_⟩
    refine xNew_paired ha a X i fun hnone => ?_
    rcases hp with hp | hp
    · exact absurd hnone (hp i hi)
    · rw [hp]; exact ⟨p3, p4⟩

/-! ## The initial sort -/

/-- a list of bounds as added for `n` new bodies -/
def Initial (s : VB R) (n : Nat) : Prop :=
  s.size = 2 * n ∧ ∀ k, k < 2 * n → pkey (s.v k) = (k / 2, k % 2 == 0) ∧ (s.v k).coord = 0 ∧ (s.v k).period = 0

open Classical in
/-- positions in a list with the split at the start -/
noncomputable def posOf (F : VB R) (κ : Key) : Int := if h : InList F κ then lift F h.choose else 0

theorem posOf_eq {F : VB R} (hinj : ∀ r r', r < F.size → r' < F.size → pkey (F.v r) = pkey (F.v r') → r = r') {r : Nat} (hr : r < F.size) :
    posOf F (pkey (F.v r)) = lift F r := by
  unfold posOf
  have h : InList F (pkey (F.v r)) := ⟨r, hr, rfl⟩
  rw [dif_pos h]
  have := h.choose_spec
  rw [hinj _ _ this.1 hr this.2]

theorem init_st {P : PPar R} {S : Scn R} (ha : AllowedP P S) {a : Fin 3} {s s' : VB R} (hs : Initial s S.n)
    (h : copyAxis S P true a s = .ok s') :
    let F : VB R := { s' with lo := 0, v := P.srt s'.size s'.v }
    St (Ids S.n) (xNew S a fun _ => 0) (hbOf S) (2 * S.n) (P.dim a) F (posOf F) ∧ ∀ r, r < 2 * S.n → 0 ≤ gap F r := by
  intro F
  obtain ⟨h1, h2, h3, h4⟩ := copyAxis_ok h
  obtain ⟨hsz, hk⟩ := hs
  have hS := ha.some
  have hd := ha.dim a
  have hF : F.size = 2 * S.n := h1.trans hsz
  have hs' : s'.size = 2 * S.n := h1.trans hsz
  -- facts about each bound after copying
  have hv : ∀ k, k < 2 * S.n → pkey (s'.v k) = (k / 2, k % 2 == 0) ∧ (s'.v k).hasBB = hbOf S (s'.v k).id ∧
      xNew S a (fun _ => 0) (pkey (s'.v k)) = (s'.v k).coord + (s'.v k).period * P.dim a ∧ 0 ≤ (s'.v k).coord ∧ (s'.v k).coord < P.dim a := by
    intro k hkn
    obtain ⟨k1, k2, k3⟩ := hk k hkn
    have hc := h4 k hkn
    unfold copyPeri at hc
    cases e : S.body (s.v k).id with
    | none =>
      rw [e] at hc
      dsimp only at hc
      generalize s'.v k = y at hc ⊢
      cases hc
      refine ⟨k1, ?_, ?_, ?_, ?_⟩
      · show false = hbOf S (s.v k).id
        unfold hbOf; rw [e]; rfl
      · show xNew S a (fun _ => 0) (pkey (s.v k)) = (s.v k).coord + (s.v k).period * P.dim a
        unfold xNew
        have : (pkey (s.v k)).1 = (s.v k).id := rfl
        rw [this, e, k2, k3]; simp
      · show 0 ≤ (s.v k).coord
        rw [k2]
      · show (s.v k).coord < P.dim a
        rw [k2]; exact hd
    | some b =>
      rw [e] at hc
      dsimp only at hc
      rw [if_pos rfl] at hc
      unfold cellWrap at hc
      have w := wrapped_floor hd (spaceCoord b (s.v k).isMin a - P.dim a * (s.v k).period) 0
      rw [sub_zero (P.dim a)] at hc
      cases et : toInt ⌊(spaceCoord b (s.v k).isMin a - P.dim a * (s.v k).period - 0) / P.dim a⌋ with
      | throws => rw [et] at hc; cases hc
      | ub => rw [et] at hc; cases hc
      | ok p =>
        rw [et] at hc
        simp only [Res.bind_ok] at hc
        generalize s'.v k = y at hc ⊢
        cases hc
        obtain ⟨rfl, _⟩ := toInt_eq et
        refine ⟨k1, ?_, ?_, ?_, ?_⟩
        · show b.bound.isSome = hbOf S (s.v k).id
          unfold hbOf; rw [e]; rfl
        · have hx : xNew S a (fun _ => 0) (pkey (s.v k)) = spaceCoord b (s.v k).isMin a := by
            unfold xNew
            have : (pkey (s.v k)).1 = (s.v k).id := rfl
            rw [this, e]; rfl
          have e2 := w.shift
          refine Eq.trans hx ?_
          refine Eq.trans ?_ e2
          rw [k3]; simp
        · exact w.ge
        · have := w.lt; rw [zero_add (P.dim a)] at this; exact this
  -- the sorted list is a permutation
  have hperm := ha.perm s'.size s'.v
  rw [hs'] at hperm
  have hback : ∀ r, r < 2 * S.n → ∃ q, q < 2 * S.n ∧ F.v r = s'.v q := by
    intro r hr
    have : P.srt (2 * S.n) s'.v r ∈ (List.range (2 * S.n)).map (P.srt (2 * S.n) s'.v) := List.mem_map.2 ⟨r, List.mem_range.2 hr, rfl⟩
    have := hperm.mem_iff.1 this
    obtain ⟨q, hq, e⟩ := List.mem_map.1 this
    refine ⟨q, List.mem_range.1 hq, ?_⟩
    show P.srt s'.size s'.v r = _
    rw [hs', e]
  have hforth : ∀ q, q < 2 * S.n → ∃ r, r < 2 * S.n ∧ F.v r = s'.v q := by
    intro q hq
    have : s'.v q ∈ (List.range (2 * S.n)).map s'.v := List.mem_map.2 ⟨q, List.mem_range.2 hq, rfl⟩
    have := hperm.mem_iff.2 this
    obtain ⟨r, hr, e⟩ := List.mem_map.1 this
    refine ⟨r, List.mem_range.1 hr, ?_⟩
    show P.srt s'.size s'.v r = _
    rw [hs', e]
  have hgood : ∀ r, r < 2 * S.n → (F.v r).hasBB = hbOf S (F.v r).id ∧
      xNew S a (fun _ => 0) (pkey (F.v r)) = (F.v r).coord + (F.v r).period * P.dim a ∧ 0 ≤ (F.v r).coord ∧ (F.v r).coord < P.dim a := by
    intro r hr
    obtain ⟨q, hq, e⟩ := hback r hr
    rw [e]; exact (hv q hq).2
  have hinj : ∀ r r', r < F.size → r' < F.size → pkey (F.v r) = pkey (F.v r') → r = r' := by
    have hnd : ((List.range (2 * S.n)).map (fun k => pkey (s'.v k))).Nodup := by
      refine List.Nodup.map_on ?_ List.nodup_range
      intro x hx y hy e
      rw [List.mem_range] at hx hy
      rw [(hv x hx).1, (hv y hy).1] at e
      have e1 := congrArg Prod.fst e
      have e2 := congrArg Prod.snd e
      simp only at e1 e2
      have : (x % 2 = 0 ↔ y % 2 = 0) := by
        constructor
        · intro h; have : (x % 2 == 0) = true := by simp [h]
          rw [e2] at this; simpa using this
        · intro h; have : (y % 2 == 0) = true := by simp [h]
          rw [← e2] at this; simpa using this
      omega
    have hp2 := hperm.map (fun x => pkey x)
    rw [List.map_map, List.map_map] at hp2
    have hnd2 := hp2.nodup_iff.2 hnd
    intro r r' hr hr' e
    refine List.inj_on_of_nodup_map hnd2 (List.mem_range.2 (by omega)) (List.mem_range.2 (by omega)) ?_
    show pkey (P.srt (2 * S.n) s'.v r) = pkey (P.srt (2 * S.n) s'.v r')
    have e' : pkey (P.srt s'.size s'.v r) = pkey (P.srt s'.size s'.v r') := e
    rw [hs'] at e'
    exact e'
  have hkeys : ∀ κ, InList F κ ↔ Ids S.n κ := by
    rintro ⟨i, b⟩
    constructor
    · rintro ⟨r, hr, e⟩
      obtain ⟨q, hq, eq⟩ := hback r (by omega)
      rw [eq, (hv q hq).1] at e
      have := congrArg Prod.fst e
      simp only at this
      show i < S.n
      omega
    · intro hi
      have hi' : i < S.n := hi
      obtain ⟨r, hr, e⟩ := hforth (2 * i + if b then 0 else 1) (by split <;> omega)
      refine ⟨r, by omega, ?_⟩
      rw [e, (hv _ (by split <;> omega)).1]
      cases b
      · simp; omega
      · simp
  have hpos : ∀ r, r < 2 * S.n → posOf F (pkey (F.v r)) = r + (2 * S.n : Nat) * (F.v r).period := by
    intro r hr
    rw [posOf_eq hinj (by omega)]
    unfold lift
    rw [hF, if_neg (show ¬ r < F.lo from Nat.not_lt_zero r)]
    push_cast; ring
  have hsort : ∀ r r', r < r' → r' < 2 * S.n → (F.v r).coord ≤ (F.v r').coord := by
    intro r r' hr hr'
    exact ha.sort s'.size s'.v r r' hr (by omega)
  refine ⟨⟨⟨by omega, by rw [hF]; show 0 < _; omega, hinj, ?_, ⟨0, ?_⟩, ?_, ?_⟩, hF, h3, hkeys, ?_⟩, ?_⟩
  · intro r hr
    have := (hkeys (partner (pkey (F.v r)))).2 (by
      have := (hkeys (pkey (F.v r))).1 ⟨r, hr, rfl⟩
      exact this)
    exact this
  · intro r hr
    rw [posOf_eq hinj hr]; ring
  · intro r hr
    unfold space
    have := (hgood r (by omega)).2.1
    rw [this]
    show _ = (F.v r).coord + (F.v r).period * s'.dim
    rw [h3]
  · intro r hr
    exact (hgood r (by omega)).1
  · intro i hi
    have hX : xNew S a (fun _ => 0) (i, true) ≤ xNew S a (fun _ => 0) (i, false) ∧
        xNew S a (fun _ => 0) (i, false) < xNew S a (fun _ => 0) (i, true) + P.dim a := by
      unfold xNew
      cases e : S.body i with
      | none => exact ⟨le_refl _, by simpa using hd⟩
      | some b =>
        dsimp only
        unfold spaceCoord
        cases e2 : b.bound with
        | none => dsimp only; exact ⟨le_refl _, by linarith⟩
        | some bb =>
          obtain ⟨lo, hi'⟩ := bb
          have := ha.size i lo hi' ⟨b, e, e2⟩ a
          refine ⟨by simpa using this.1, ?_⟩
          have h1 := this.2; simp; linarith
    obtain ⟨r, hr, er⟩ := (hkeys (i, true)).2 hi
    obtain ⟨r', hr', er'⟩ := (hkeys (i, false)).2 hi
    have gr := hgood r (by omega)
    have gr' := hgood r' (by omega)
    have pr := hpos r (by omega)
    have pr' := hpos r' (by omega)
    rw [er] at gr pr
    rw [er'] at gr' pr'
    obtain ⟨_, x1, x2, x3⟩ := gr
    obtain ⟨_, y1, y2, y3⟩ := gr'
    have hne : r ≠ r' := by
      rintro rfl; rw [er] at er'; simp at er'
    refine ⟨?_, ?_, hX.1, hX.2.le⟩
    all_goals
      rw [pr, pr']
      rw [x1, y1] at hX
      generalize (F.v r).period = p at *
      generalize (F.v r').period = p' at *
      have hp : p ≤ p' := by
        by_contra hc
        have : ((p' + 1 : Int) : R) ≤ (p : R) := by exact_mod_cast (by omega : p' + 1 ≤ p)
        have := mul_le_mul_of_nonneg_right this hd.le
        push_cast at this
        linarith [hX.1]
      have hp2 : p' ≤ p + 1 := by
        by_contra hc
        have : ((p + 2 : Int) : R) ≤ (p' : R) := by exact_mod_cast (by omega : p + 2 ≤ p')
        have := mul_le_mul_of_nonneg_right this hd.le
        push_cast at this
        linarith [hX.2]
      rcases (by omega : p' = p ∨ p' = p + 1) with rfl | rfl
      · have hlt : r < r' := by
          by_contra hc
          have hlt : r' < r := by omega
          have c1 := hsort r' r hlt (by omega)
          have c2 : (F.v r').coord = (F.v r).coord := le_antisymm c1 (by linarith [hX.1])
          have := ha.ties s'.size s'.v r' r hlt (by omega) c2
            (by
              have e1 : (F.v r').id = i := congrArg Prod.fst er'
              have e2 : (F.v r).id = i := congrArg Prod.fst er
              exact e1.trans e2.symm)
            (congrArg Prod.snd er')
          have e2 : (F.v r).isMin = true := congrArg Prod.snd er
          exact absurd (this.symm.trans e2) (by simp)
        omega
      · have hlt : r' < r := by
          by_contra hc
          have c1 := hsort r r' (by omega) (by omega)
          push_cast at hX
          linarith [hX.2]
        push_cast
        rw [hF] at hr
        rw [mul_add]
        omega
  · intro r hr
    unfold gap
    rw [hF]
    by_cases h0 : r = 0
    · rw [if_pos (show r = F.lo from h0)]
      have g1 := (hgood r hr).2.2
      have g2 := (hgood (prv (2 * S.n) r) (prv_lt hr)).2.2
      have : F.dim = P.dim a := h3
      rw [this]; linarith
    · rw [if_neg (show ¬ r = F.lo from h0)]
      have e : prv (2 * S.n) r = r - 1 := by unfold prv; rw [if_neg h0]
      rw [e]
      have := hsort (r - 1) r (by omega) hr
      linarith

/-! ## The sweep -/

theorem sweepFrom_ok {L X hb n} {dim : R} {s : VB R} {K} (S : St L X hb n dim s K) {C : PCx R} {iid : Nat} (hi : hb iid = true) :
    ∀ (fuel j : Nat) (I I' : PInts), j < n → sweepFrom C s iid fuel j I = some (.ok I') →
    Grow C hb I I' ∧ ∀ t, (∀ t', t' ≤ t → (s.v ((j + t') % n)).id ≠ iid) → (s.v ((j + t) % n)).isMin = true →
      hb (s.v ((j + t) % n)).id = true → Rec C I' iid (s.v ((j + t) % n)).id := by
  have hn : 0 < n := by have := S.rep.two; rw [S.size] at this; omega
  intro fuel
  induction fuel with
  | zero => intro j I I' _ h; cases h
  | succ fuel ih =>
    intro j I I' hj h
    have hj0 : (j + 0) % n = j := by rw [Nat.add_zero, Nat.mod_eq_of_lt hj]
    unfold sweepFrom at h
    rw [S.size, norm_succ hj] at h
    have hbb := S.rep.box j (by rw [S.size]; exact hj)
    have hshift : ∀ t, (j + (t + 1)) % n = (nxt n j + t) % n := by
      intro t
      unfold nxt
      split
      · rename_i e
        have : j + (t + 1) = 0 + t + n := by omega
        rw [this, Nat.add_mod_right]
      · congr 1; omega
    split at h
    · rename_i he
      cases h
      refine ⟨.refl, fun t ht _ _ => ?_⟩
      exact absurd he (by have := ht 0 (Nat.zero_le _); rw [hj0] at this; exact this)
    · rename_i he
      split at h
      · rename_i hc
        rw [hbb] at hc
        simp only [Bool.and_eq_true] at hc
        obtain ⟨I1, e1, h⟩ := obind_ok h
        have e1 : handlePeri C I iid (s.v j).id = .ok I1 := by simpa using e1
        obtain ⟨g1, r1⟩ := handle_ok (fun e => he e.symm) hi hc.2 e1
        obtain ⟨g2, r2⟩ := ih (nxt n j) I1 I' (nxt_lt hj) h
        refine ⟨g1.trans g2, fun t ht hm hb' => ?_⟩
        cases t with
        | zero => rw [hj0]; exact r1.mono g2
        | succ t =>
          rw [hshift] at hm hb' ⊢
          exact r2 t (fun t' h' => by have := ht (t' + 1) (by omega); rw [hshift] at this; exact this) hm hb'
      · rename_i hc
        rw [hbb] at hc
        obtain ⟨g2, r2⟩ := ih (nxt n j) I I' (nxt_lt hj) h
        refine ⟨g2, fun t ht hm hb' => ?_⟩
        cases t with
        | zero => rw [hj0] at hm hb'; exact absurd (by rw [hm, hb']; rfl) hc
        | succ t =>
          rw [hshift] at hm hb' ⊢
          exact r2 t (fun t' h' => by have := ht (t' + 1) (by omega); rw [hshift] at this; exact this) hm hb'

theorem sweepPeri_ok {L X hb n} {dim : R} {s : VB R} {K} (S : St L X hb n dim s K) {C : PCx R} {fuel : Nat} :
    ∀ (k i : Nat) (I I' : PInts), i + k ≤ n → sweepPeri C s fuel k i I = some (.ok I') →
    Grow C hb I I' ∧ ∀ q, i ≤ q → q < i + k → (s.v q).isMin = true → hb (s.v q).id = true →
      ∀ t, (∀ t', t' ≤ t → (s.v ((nxt n q + t') % n)).id ≠ (s.v q).id) → (s.v ((nxt n q + t) % n)).isMin = true →
      hb (s.v ((nxt n q + t) % n)).id = true → Rec C I' (s.v q).id (s.v ((nxt n q + t) % n)).id := by
  intro k
  induction k with
  | zero =>
    intro i I I' _ h
    simp only [sweepPeri] at h
    cases h
    exact ⟨.refl, fun q h1 h2 => by omega⟩
  | succ k ih =>
    intro i I I' hik h
    unfold sweepPeri at h
    have hbb := S.rep.box i (by rw [S.size]; omega)
    rw [S.size, norm_succ (by omega)] at h
    split at h
    · rename_i hc
      rw [hbb] at hc
      simp only [Bool.and_eq_true] at hc
      obtain ⟨I1, e1, h⟩ := obind_ok h
      obtain ⟨g1, r1⟩ := sweepFrom_ok S hc.2 fuel _ I I1 (nxt_lt (by omega)) e1
      obtain ⟨g2, r2⟩ := ih (i + 1) I1 I' (by omega) h
      refine ⟨g1.trans g2, fun q h1 h2 hm hb' t ht h3 h4 => ?_⟩
      by_cases c : q = i
      · subst c; exact (r1 t ht h3 h4).mono g2
      · exact r2 q (by omega) (by omega) hm hb' t ht h3 h4
    · rename_i hc
      rw [hbb] at hc
      obtain ⟨g2, r2⟩ := ih (i + 1) I I' (by omega) h
      refine ⟨g2, fun q h1 h2 hm hb' t ht h3 h4 => ?_⟩
      by_cases c : q = i
      · subst c; exact absurd (by rw [hm, hb']; rfl) hc
      · exact r2 q (by omega) (by omega) hm hb' t ht h3 h4

/-- the index of a bound is its position modulo the length -/
theorem St.at {L X hb n} {dim : R} {s : VB R} {K} (S : St L X hb n dim s K) {κ : Key} (h : L κ) {r : Nat} (hr : r < n) {z : Int}
    (e : K κ = r + n * z) : pkey (s.v r) = κ := by
  obtain ⟨q, hq, rfl⟩ := (S.keys _).2 h
  have := S.rep.mod hq
  rw [S.size, e, Int.add_mul_emod_self_left, Int.emod_eq_of_lt (by omega) (by omega)] at this
  have : r = q := by omega
  rw [this]

theorem sweep_cov {L X hb n} {dim : R} {s : VB R} {K} (S : St L X hb n dim s K) {C : PCx R} {fuel : Nat} {I I' : PInts}
    (h : sweepPeri C s fuel n 0 I = some (.ok I')) :
    Grow C hb I I' ∧ ∀ i j (m : Int), hb i = true → hb j = true → L (i, true) → L (j, true) →
      K (i, true) < K (j, true) + n * m → K (j, true) + n * m < K (i, false) → Rec C I' i j := by
  obtain ⟨g, r⟩ := sweepPeri_ok S n 0 I I' (by omega) h
  have hn : 0 < n := by have := S.rep.two; rw [S.size] at this; omega
  refine ⟨g, fun i j m hi hj Li Lj h1 h2 => ?_⟩
  obtain ⟨q, hq, eq⟩ := (S.keys _).2 Li
  rw [S.size] at hq
  obtain ⟨p1, p2, _, _⟩ := S.paired i Li
  have hqm := S.rep.mod (r := q) (by rw [S.size]; exact hq)
  rw [eq, S.size] at hqm
  have hKq : K (i, true) = q + n * (K (i, true) / n) := by
    have := Int.emod_add_mul_ediv (K (i, true)) n
    rw [hqm] at this; exact this.symm
  have hidx : ∀ t : Nat, ((nxt n q + t) % n : Nat) = (((q : Int) + 1 + t) % n : Int) := by
    intro t
    have : (nxt n q + t) % n = (q + 1 + t) % n := by
      unfold nxt
      split
      · rename_i e
        have : q + 1 + t = 0 + t + n := by omega
        rw [this, Nat.add_mod_right]
      · rfl
    rw [this]; push_cast; rfl
  have hat : ∀ (t : Nat) (κ : Key) (z : Int), L κ → K κ + n * z = K (i, true) + 1 + t → pkey (s.v ((nxt n q + t) % n)) = κ := by
    intro t κ z hκ e
    refine S.at hκ (Nat.mod_lt _ hn) (z := ((q : Int) + 1 + t) / n + K (i, true) / n - z) ?_
    rw [hidx]
    have := Int.emod_add_mul_ediv ((q : Int) + 1 + t) n
    have e2 : K κ = (q : Int) + 1 + t + n * (K (i, true) / n) - n * z := by linarith
    rw [e2, mul_sub, mul_add]
    linarith
  obtain ⟨t, ht⟩ : ∃ t : Nat, K (j, true) + n * m = K (i, true) + 1 + t := ⟨(K (j, true) + n * m - K (i, true) - 1).toNat, by omega⟩
  have hk := hat t (j, true) m Lj ht
  have e1 : (s.v ((nxt n q + t) % n)).id = j := congrArg Prod.fst hk
  have e2 : (s.v ((nxt n q + t) % n)).isMin = true := congrArg Prod.snd hk
  have e3 : (s.v q).id = i := congrArg Prod.fst eq
  have e4 : (s.v q).isMin = true := congrArg Prod.snd eq
  have res := r q (Nat.zero_le _) (by omega) e4 (by rw [e3]; exact hi) t (by
    intro t' ht' hid
    rw [e3] at hid
    -- the bound met there is one of body `i`
    have hL := S.in (Nat.mod_lt (nxt n q + t') hn)
    have hmod := S.rep.mod (r := (nxt n q + t') % n) (by rw [S.size]; exact Nat.mod_lt _ hn)
    rw [S.size, hidx] at hmod
    have hdvd : ∃ z : Int, K (pkey (s.v ((nxt n q + t') % n))) + n * z = K (i, true) + 1 + t' := by
      have a1 := Int.emod_add_mul_ediv (K (pkey (s.v ((nxt n q + t') % n)))) n
      have a2 := Int.emod_add_mul_ediv ((q : Int) + 1 + t') n
      refine ⟨((q : Int) + 1 + t') / n + K (i, true) / n - K (pkey (s.v ((nxt n q + t') % n))) / n, ?_⟩
      rw [mul_sub, mul_add]; linarith
    obtain ⟨z, hz⟩ := hdvd
    rcases hkk : pkey (s.v ((nxt n q + t') % n)) with ⟨i', b⟩
    have : i' = i := by
      have : (s.v ((nxt n q + t') % n)).id = i' := congrArg Prod.fst hkk
      omega
    subst this
    rw [hkk] at hz
    have ht'' : (t' : Int) ≤ t := by exact_mod_cast ht'
    cases b with
    | true =>
      rcases mul_cases (m := z) hn with ⟨_, c⟩ | rfl | rfl | ⟨_, c⟩ <;> omega
    | false =>
      rcases mul_cases (m := z) hn with ⟨_, c⟩ | rfl | rfl | ⟨_, c⟩ <;> omega) e2 (by rw [e1]; exact hj)
  rw [e1, e3] at res
  exact res

/-! ## Erasing and the whole run -/

theorem condErase_ok {C : PCx R} : ∀ {I I' : PInts}, condErasePeri C I = .ok I' →
    (∀ e ∈ I', e ∈ I ∧ (e.real = true ∨ ∃ d, overlapPeri C e.a e.b = .ok (some d))) ∧
    (∀ e ∈ I, (e.real = true ∨ ∃ d, overlapPeri C e.a e.b = .ok (some d)) → e ∈ I') := by
  intro I
  induction I with
  | nil => intro I' h; cases h; exact ⟨fun e he => (List.not_mem_nil he).elim, fun e he => (List.not_mem_nil he).elim⟩
  | cons x I ih =>
    intro I' h
    unfold condErasePeri at h
    by_cases hr : x.real = true
    · rw [if_pos hr] at h
      cases e : condErasePeri C I with
      | throws => rw [e] at h; cases h
      | ub => rw [e] at h; cases h
      | ok J =>
        rw [e] at h
        cases h
        obtain ⟨a1, a2⟩ := ih e
        constructor
        · intro e he
          rcases List.mem_cons.1 he with rfl | he
          · exact ⟨List.mem_cons_self, Or.inl hr⟩
          · exact ⟨List.mem_cons_of_mem _ (a1 e he).1, (a1 e he).2⟩
        · intro e he hk
          rcases List.mem_cons.1 he with rfl | he
          · exact List.mem_cons_self
          · exact List.mem_cons_of_mem _ (a2 e he hk)
    · rw [if_neg hr] at h
      cases ho : overlapPeri C x.a x.b with
      | throws => rw [ho] at h; cases h
      | ub => rw [ho] at h; cases h
      | ok r =>
        rw [ho] at h
        cases r with
        | none =>
          simp only [Res.bind_ok] at h
          obtain ⟨a1, a2⟩ := ih h
          refine ⟨fun e he => ⟨List.mem_cons_of_mem _ (a1 e he).1, (a1 e he).2⟩, fun e he hk => ?_⟩
          rcases List.mem_cons.1 he with rfl | he
          · rcases hk with hk | ⟨d, hk⟩
            · exact absurd hk hr
            · rw [ho] at hk; cases hk
          · exact a2 e he hk
        | some d =>
          simp only [Res.bind_ok] at h
          cases e : condErasePeri C I with
          | throws => rw [e] at h; cases h
          | ub => rw [e] at h; cases h
          | ok J =>
            rw [e] at h
            cases h
            obtain ⟨a1, a2⟩ := ih e
            constructor
            · intro e he
              rcases List.mem_cons.1 he with rfl | he
              · exact ⟨List.mem_cons_self, Or.inr ⟨d, ho⟩⟩
              · exact ⟨List.mem_cons_of_mem _ (a1 e he).1, (a1 e he).2⟩
            · intro e he hk
              rcases List.mem_cons.1 he with rfl | he
              · exact List.mem_cons_self
              · exact List.mem_cons_of_mem _ (a2 e he hk)

theorem pfound_comm {I : PInts} {i j : Nat} : pfound I i j = pfound I j i := by
  unfold pfound
  congr 1
  funext e
  unfold PEnt.is
  rw [Bool.or_comm]

theorem pfound_iff {I : PInts} {i j : Nat} : pfound I i j = true ↔ ∃ e ∈ I, (e.a = i ∧ e.b = j) ∨ (e.a = j ∧ e.b = i) := by
  unfold pfound PEnt.is
  simp only [List.any_eq_true, Bool.or_eq_true, Bool.and_eq_true, decide_eq_true_eq]

/-- every eligible pair that overlaps in the sequences of all axes is in -/
def CovP (S : Scn R) (K : Fin 3 → Key → Int) (I : PInts) : Prop :=
  ∀ i j (m : Fin 3 → Int), i ≠ j → Elig S i j →
    (∀ a, K a (i, true) < K a (j, false) + (2 * S.n : Nat) * m a ∧ K a (j, true) + (2 * S.n : Nat) * m a < K a (i, false)) → pfound I i j = true

/-- the lists after copying or sorting -/
structure Lists (S : Scn R) (dim : Fin 3 → R) (bb : Fin 3 → VB R) (K : Fin 3 → Key → Int) (X : Fin 3 → Key → R) : Prop where
  st : ∀ a, St (Ids S.n) (X a) (hbOf S) (2 * S.n) (dim a) (bb a) (K a)
  crd : ∀ a i b, S.body i = some b → ∀ m, X a (i, m) = spaceCoord b m a

/-- what holds after every run -/
structure AfterP (c : PCol R) (I : PInts) (S : Scn R) (dim : Fin 3 → R) : Prop where
  some : 0 < S.n
  size : c.size = 2 * S.n
  per : c.periodic = true
  nosort : c.doSort = false
  ex : ∃ K X, Lists S dim c.bb K X ∧ (∀ a r, r < 2 * S.n → 0 ≤ gap (c.bb a) r) ∧ CovP S K I

/-- what a run does with the interactions -/
def Changes (P : PPar R) (S : Scn R) (old new : Nat → Fin 3 → R) (I I' : PInts) : Prop :=
  ∃ I1, condErasePeri (pcx S P (boxLo S old) (boxHi S new)) I = .ok I1 ∧ Grow (pcx S P (boxLo S old) (boxHi S new)) (hbOf S) I1 I'

theorem boxed_of {S : Scn R} {i : Nat} (h : Boxed S i) : hbOf S i = true ∧ ∃ lo hi, HasBox S i lo hi ∧
    (∀ old, boxLo S old i = lo) ∧ ∀ old, boxHi S old i = hi := by
  obtain ⟨b, bb, h1, h2⟩ := h
  refine ⟨by unfold hbOf; rw [h1]; show b.bound.isSome = true; rw [h2]; rfl, bb.1, bb.2, ⟨b, h1, h2⟩, ?_, ?_⟩
  · intro old; unfold boxLo; rw [h1]; show (match b.bound with | some b => b.1 | none => old i) = _; rw [h2]
  · intro old; unfold boxHi; rw [h1]; show (match b.bound with | some b => b.2 | none => old i) = _; rw [h2]

theorem boxed_of_hb {S : Scn R} {i : Nat} (h : hbOf S i = true) : Boxed S i := by
  unfold hbOf at h
  cases e : S.body i with
  | none => rw [e] at h; cases h
  | some b =>
    rw [e] at h
    cases e2 : b.bound with
    | none => exfalso; revert h; show ¬ b.bound.isSome = true; rw [e2]; simp
    | some bb => exact ⟨b, bb, e, e2⟩

theorem perOk {P : PPar R} {S : Scn R} (ha : AllowedP P S) {i j : Nat} (hi : Boxed S i) (hj : Boxed S j) (o1 o2 : Nat → Fin 3 → R) :
    PeriOk (pcx S P (boxLo S o1) (boxHi S o2)) P.dim i j ∧ SizeOk (pcx S P (boxLo S o1) (boxHi S o2)) P.dim i j := by
  obtain ⟨_, lo, hi', b1, l1, l2⟩ := boxed_of hi
  obtain ⟨_, lo', hi'', b2, l3, l4⟩ := boxed_of hj
  refine ⟨⟨ha.dim, fun _ => rfl, ha.tol, ⟨?_, ?_⟩, ?_⟩, ⟨?_, ?_⟩⟩
  · obtain ⟨b, h1, _⟩ := b1; exact ha.range i (by rw [h1]; simp)
  · obtain ⟨b, h1, _⟩ := b2; exact ha.range j (by rw [h1]; simp)
  · intro a
    show |boxHi S o2 j a - boxHi S o2 i a| < _
    rw [l2, l4]
    exact ha.apart i lo hi' j lo' hi'' b1 b2 a
  · intro a
    show boxLo S o1 i a ≤ boxHi S o2 i a ∧ boxHi S o2 i a - boxLo S o1 i a ≤ P.dim a
    rw [l1, l2]
    have := ha.size i lo hi' b1 a
    have := ha.dim a
    constructor <;> linarith
  · intro a
    show boxLo S o1 j a ≤ boxHi S o2 j a ∧ boxHi S o2 j a - boxLo S o1 j a ≤ P.dim a / 2
    rw [l3, l4]
    exact ha.size j lo' hi'' b2 a

/-- a pair overlapping in sorted sequences has boxes near each other -/
theorem near_of_pos {P : PPar R} {S : Scn R} (ha : AllowedP P S) {bb : Fin 3 → VB R} {K : Fin 3 → Key → Int} {X : Fin 3 → Key → R}
    (hl : Lists S P.dim bb K X) (hg : ∀ a r, r < 2 * S.n → 0 ≤ gap (bb a) r) {i j : Nat} (hi : Boxed S i) (hj : Boxed S j) {m : Fin 3 → Int}
    (h : ∀ a, K a (i, true) < K a (j, false) + (2 * S.n : Nat) * m a ∧ K a (j, true) + (2 * S.n : Nat) * m a < K a (i, false))
    (o1 o2 : Nat → Fin 3 → R) : Near (pcx S P (boxLo S o1) (boxHi S o2)) P.dim i j m := by
  have li : i < S.n := by obtain ⟨b, bb, h1, _⟩ := hi; exact ha.range i (by rw [h1]; simp)
  have lj : j < S.n := by obtain ⟨b, bb, h1, _⟩ := hj; exact ha.range j (by rw [h1]; simp)
  intro a
  obtain ⟨h1, h2⟩ := h a
  have x1 := (hl.st a).le_of_lt (hg a) (κ := (i, true)) (κ' := (j, false)) li lj h1
  have x2 := (hl.st a).le_of_lt (hg a) (κ := (j, true)) (κ' := (i, false)) (m := -m a) lj li (by rw [mul_neg]; linarith)
  obtain ⟨_, lo, hi', ⟨b1, c1, c2⟩, l1, l2⟩ := boxed_of hi
  obtain ⟨_, lo', hi'', ⟨b2, c3, c4⟩, l3, l4⟩ := boxed_of hj
  rw [hl.crd a i b1 c1, hl.crd a j b2 c3] at x1
  rw [hl.crd a i b1 c1, hl.crd a j b2 c3] at x2
  unfold spaceCoord at x1 x2
  rw [c2, c4] at x1 x2
  simp only [if_true, Bool.false_eq_true, if_false] at x1 x2
  have ht := mul_nonneg ha.tol (ha.dim a).le
  show NearAt P.tol (P.dim a) (boxLo S o1 i a) (boxHi S o2 i a) (boxLo S o1 j a) (boxHi S o2 j a) (m a)
  rw [l1, l2, l3, l4]
  push_cast at x2
  constructor <;> linarith

theorem may_of_pair {S : Scn R} {i j : Nat} (h : Pair S i j) :
    mayCollide S.avoid S.sub (fltOf S i) (fltOf S j) = .ok true ∧ mayCollide S.avoid S.sub (fltOf S j) (fltOf S i) = .ok true := by
  obtain ⟨b1, b2, h1, h2, h3⟩ := h
  rw [h1, h2]
  exact ⟨by show Res.ok _ = _; rw [h3], by show Res.ok _ = _; rw [filter_comm, h3]⟩

/-- a pair that overlaps, may collide and has been dealt with is in -/
theorem found_of_rec {P : PPar R} {S : Scn R} (ha : AllowedP P S) {i j : Nat} (he : Elig S i j) {m : Fin 3 → Int} {o1 o2 : Nat → Fin 3 → R}
    (hn : Near (pcx S P (boxLo S o1) (boxHi S o2)) P.dim i j m) {I : PInts}
    (h : Rec (pcx S P (boxLo S o1) (boxHi S o2)) I i j ∨ Rec (pcx S P (boxLo S o1) (boxHi S o2)) I j i) : pfound I i j = true := by
  obtain ⟨h1, h2, h3⟩ := he
  obtain ⟨m1, m2⟩ := may_of_pair h3
  rcases h with h | h
  · rcases h with h | h | h
    · exact h
    · rcases C30_exact _ P.dim i j (perOk ha h1 h2 o1 o2).1 (perOk ha h1 h2 o1 o2).2 with ⟨d, e, _⟩ | ⟨_, e⟩
      · rw [h] at e; cases e
      · exact absurd hn (e m)
    · exact absurd (h.symm.trans m1) (by simp)
  · rcases h with h | h | h
    · rw [pfound_comm]; exact h
    · rcases C30_exact _ P.dim j i (perOk ha h2 h1 o1 o2).1 (perOk ha h2 h1 o1 o2).2 with ⟨d, e, _⟩ | ⟨_, e⟩
      · rw [h] at e; cases e
      · exact absurd (fun a => (hn a).swap) (e fun a => -m a)
    · exact absurd (h.symm.trans m2) (by simp)

theorem Elig.symm' {S : Scn R} {i j : Nat} (h : Elig S i j) : Elig S j i := by
  obtain ⟨h1, h2, b1, b2, h3, h4, h5⟩ := h
  exact ⟨h2, h1, b2, b1, h4, h3, by rw [filter_comm]; exact h5⟩

/-- coverage from the sweep along any axis -/
theorem cov_of_sweep {P : PPar R} {S : Scn R} (ha : AllowedP P S) {bb : Fin 3 → VB R} {K : Fin 3 → Key → Int} {X : Fin 3 → Key → R}
    (hl : Lists S P.dim bb K X) (hg : ∀ a r, r < 2 * S.n → 0 ≤ gap (bb a) r) {o1 o2 : Nat → Fin 3 → R} {fuel : Nat} {ax : Fin 3} {I I' : PInts}
    (h : sweepPeri (pcx S P (boxLo S o1) (boxHi S o2)) (bb ax) fuel (2 * S.n) 0 I = some (.ok I')) :
    Grow (pcx S P (boxLo S o1) (boxHi S o2)) (hbOf S) I I' ∧ CovP S K I' := by
  obtain ⟨g, r⟩ := sweep_cov (hl.st ax) h
  refine ⟨g, fun i j m hij he hp => ?_⟩
  have hne := near_of_pos ha hl hg he.1 he.right hp o1 o2
  refine found_of_rec ha he hne ?_
  have bi := (boxed_of he.1).1
  have bj := (boxed_of he.right).1
  have li : i < S.n := by obtain ⟨b, bb, h1, _⟩ := he.1; exact ha.range i (by rw [h1]; simp)
  have lj : j < S.n := by obtain ⟨b, bb, h1, _⟩ := he.right; exact ha.range j (by rw [h1]; simp)
  obtain ⟨h1, h2⟩ := hp ax
  rcases Int.lt_trichotomy (K ax (i, true)) (K ax (j, true) + (2 * S.n : Nat) * m ax) with c | c | c
  · exact Or.inl (r i j (m ax) bi bj li lj c h2)
  · have := (hl.st ax).modInj (κ := (i, true)) (κ' := (j, true)) li lj c
    exact absurd (congrArg Prod.fst this) hij
  · exact Or.inr (r j i (-m ax) bj bi lj li (by rw [mul_neg]; linarith) (by rw [mul_neg]; linarith))

/-- three sorts in turn -/
theorem sort3 {P : PPar R} {S : Scn R} (ha : AllowedP P S) {C : PCx R} {dc : Bool} {fuel : Nat} {bb bb' : Fin 3 → VB R} {K : Fin 3 → Key → Int}
    {X : Fin 3 → Key → R} (hl : Lists S P.dim bb K X) {I I' : PInts}
    (h : axes3 (fun _ s I => insertionSortPeri C dc fuel s I) bb I = some (.ok (bb', I'))) :
    ∃ K', Lists S P.dim bb' K' X ∧ (∀ a r, r < 2 * S.n → 0 ≤ gap (bb' a) r) ∧ Grow C (hbOf S) I I' ∧
      (dc = true → ∀ a, Tracks (2 * S.n) (Ids S.n) (hbOf S) C (K a) (K' a) I') := by
  obtain ⟨I1, I2, e0, e1, e2⟩ := axes3_ok h
  obtain ⟨K0, s0, g0, r0, t0⟩ := sort_inv (ha.dim 0).le (hl.st 0) e0
  obtain ⟨K1, s1, g1, r1, t1⟩ := sort_inv (ha.dim 1).le (hl.st 1) e1
  obtain ⟨K2, s2, g2, r2, t2⟩ := sort_inv (ha.dim 2).le (hl.st 2) e2
  refine ⟨fun a => if a = 0 then K0 else if a = 1 then K1 else K2, ⟨forall_fin3 s0 s1 s2, hl.crd⟩, forall_fin3 g0 g1 g2,
    r0.trans (r1.trans r2), fun hdc => forall_fin3 ?_ ?_ ?_⟩
  · intro i j m a b c d e f g
    exact (t0 hdc i j m a b c d e f g).mono (r1.trans r2)
  · intro i j m a b c d e f g
    exact (t1 hdc i j m a b c d e f g).mono r2
  · exact t2 hdc


/-- the collider at the start of the sort -/
theorem action_ok {P : PPar R} {S : Scn R} {fuel : Nat} {dirty : Bool} {c c' : PCol R} {I I' : PInts}
    (h : actionPeri P S fuel dirty c I = some (.ok (c', I'))) : ∃ bb I1 mn mx,
      (∀ a, copyAxis S P (c.doSort || (resizePeri (toPeriodic c) S.n).2 || dirty) a ((resizePeri (toPeriodic c) S.n).1.bb a) = .ok (bb a)) ∧
      condErasePeri (pcx S P (boxLo S mn) (boxHi S mx)) I = .ok I1 ∧
      sortCollidePeri P S fuel { (resizePeri (toPeriodic c) S.n).1 with bb := bb, mn := boxLo S mn, mx := boxHi S mx, doSort := false }
        (c.doSort || (resizePeri (toPeriodic c) S.n).2 || dirty) I1 = some (.ok (c', I')) := by
  unfold actionPeri at h
  obtain ⟨⟨bb, u⟩, e1, h⟩ := obind_ok h
  obtain ⟨I1, e2, h⟩ := obind_ok h
  refine ⟨bb, I1, (resizePeri (toPeriodic c) S.n).1.mn, (resizePeri (toPeriodic c) S.n).1.mx, ?_, by simpa using e2, h⟩
  obtain ⟨u1, u2, a0, a1, a2⟩ := axes3_ok e1
  have conv : ∀ {a s s'} {x : Unit}, some ((copyAxis S P (c.doSort || (resizePeri (toPeriodic c) S.n).2 || dirty) a s).bind fun s => Res.ok (s, ())) =
      some (Res.ok (s', x)) → copyAxis S P (c.doSort || (resizePeri (toPeriodic c) S.n).2 || dirty) a s = .ok s' := by
    intro a s s' x hh
    cases e : copyAxis S P (c.doSort || (resizePeri (toPeriodic c) S.n).2 || dirty) a s with
    | ok y => rw [e] at hh; simp at hh; rw [hh]
    | throws => rw [e] at hh; cases hh
    | ub => rw [e] at hh; cases hh
  exact forall_fin3 (conv a0) (conv a1) (conv a2)

theorem swept {P : PPar R} {S : Scn R} (ha : AllowedP P S) {fuel : Nat} {c c' : PCol R} {K : Fin 3 → Key → Int} {X : Fin 3 → Key → R}
    {bb : Fin 3 → VB R} (hl : Lists S P.dim bb K X) (hg : ∀ a r, r < 2 * S.n → 0 ≤ gap (bb a) r) {o1 o2 : Nat → Fin 3 → R} {I I' : PInts} {ax}
    (hp : c.periodic = true) (hz : c.size = 2 * S.n) (hd : c.doSort = false)
    (h : (obind (sweepPeri (pcx S P (boxLo S o1) (boxHi S o2)) (bb ax) fuel (2 * S.n) 0 I) fun I' => some (.ok ({ c with bb := bb }, I'))) =
      some (Res.ok (c', I'))) :
    AfterP c' I' S P.dim ∧ Grow (pcx S P (boxLo S o1) (boxHi S o2)) (hbOf S) I I' := by
  obtain ⟨J, e, h⟩ := obind_ok h
  simp only [Option.some.injEq, Res.ok.injEq, Prod.mk.injEq] at h
  obtain ⟨rfl, rfl⟩ := h
  obtain ⟨g, cv⟩ := cov_of_sweep ha hl hg e
  exact ⟨⟨ha.some, hz, hp, hd, K, X, hl, hg, cv⟩, g⟩

theorem run_first {P : PPar R} {S : Scn R} (ha : AllowedP P S) {fuel : Nat} {dirty : Bool} {c c' : PCol R} {I I' : PInts}
    (hc : c.size = 0 ∧ ∀ a, (c.bb a).size = 0) (h : actionPeri P S fuel dirty c I = some (.ok (c', I'))) :
    AfterP c' I' S P.dim ∧ ∃ o1 o2, Changes P S o1 o2 I I' := by
  obtain ⟨bb, I1, mn, mx, h1, h2, h3⟩ := action_ok h
  have hS := ha.some
  have ht : (toPeriodic c).size = 0 ∧ (∀ a, ((toPeriodic c).bb a).size = 0) ∧ (toPeriodic c).periodic = true := by
    unfold toPeriodic
    split
    · rename_i e; exact ⟨hc.1, hc.2, e⟩
    · exact ⟨hc.1, fun _ => rfl, rfl⟩
  have hr : (∀ a, Initial ((resizePeri (toPeriodic c) S.n).1.bb a) S.n) ∧ (resizePeri (toPeriodic c) S.n).1.size = 2 * S.n ∧
      (resizePeri (toPeriodic c) S.n).2 = true ∧ (resizePeri (toPeriodic c) S.n).1.periodic = true := by
    unfold resizePeri
    rw [if_pos (by rw [ht.1]; omega)]
    have e2 : ∀ a, (if 2 * S.n < (toPeriodic c).size then { (toPeriodic c).bb a with size := 0 } else (toPeriodic c).bb a).size = 0 := by
      intro a; rw [if_neg (by rw [ht.1]; omega)]; exact ht.2.1 a
    refine ⟨fun a => ?_, ?_, ?_, ht.2.2⟩
    · refine ⟨?_, fun k hk => ?_⟩
      · unfold addBounds; dsimp only; rw [e2 a, ht.1]; omega
      · unfold addBounds; dsimp only
        rw [e2 a, if_neg (by omega), ht.1]
        exact ⟨by unfold pkey; simp, rfl, rfl⟩
    · unfold addBounds; dsimp only; rw [e2 0, ht.1]; omega
    · dsimp only; rw [ht.1]; simp
  rw [hr.2.2.1] at h1 h3
  simp only [Bool.or_true, Bool.true_or] at h1 h3
  unfold sortCollidePeri at h3
  simp only [Bool.not_true, Bool.false_and, Bool.false_eq_true, if_false, if_true, obind] at h3
  have ist := fun a => init_st ha (hr.1 a) (h1 a)
  have hl : Lists S P.dim (fun a => { bb a with lo := 0, v := P.srt (bb a).size (bb a).v })
      (fun a => posOf { bb a with lo := 0, v := P.srt (bb a).size (bb a).v }) (fun a => xNew S a fun _ => 0) :=
    ⟨fun a => (ist a).1, fun a i b e m => by unfold xNew; dsimp only; rw [e]⟩
  obtain ⟨k1, k2⟩ := swept (c := { (resizePeri (toPeriodic c) S.n).1 with bb := bb, mn := boxLo S mn, mx := boxHi S mx, doSort := false }) ha hl
    (fun a => (ist a).2) hr.2.2.2 hr.2.1 rfl (o1 := mn) (o2 := mx) (I := I1) h3
  exact ⟨k1, mn, mx, I1, h2, k2⟩

theorem run_next {P : PPar R} {S S' : Scn R} (ha : AllowedP P S') {fuel : Nat} {dim : Fin 3 → R} {c c' : PCol R} {I J J' : PInts}
    (hA : AfterP c I S dim) (hn : S'.n = S.n) (hp : (∀ i, i < S'.n → S'.body i ≠ none) ∨ P.dim = dim) (a2 : Bool) (a3 : Fin 3)
    (h : actionPeri P S' fuel false { c with sortThenCollide := a2, sortAxis := a3 } J = some (.ok (c', J'))) :
    ((a2 = true ∨ ((∀ i j, Elig S' i j → Elig S i j) ∧ ∀ i j, pfound I i j = true → pfound J i j = true)) → AfterP c' J' S' P.dim) ∧
      ∃ o1 o2, Changes P S' o1 o2 J J' := by
  obtain ⟨bb, I1, mn, mx, h1, h2, h3⟩ := action_ok h
  have ht : toPeriodic { c with sortThenCollide := a2, sortAxis := a3 } = { c with sortThenCollide := a2, sortAxis := a3 } := by
    unfold toPeriodic; rw [if_pos hA.per]
  have hr : resizePeri (toPeriodic { c with sortThenCollide := a2, sortAxis := a3 }) S'.n =
      ({ c with sortThenCollide := a2, sortAxis := a3 }, false) := by
    rw [ht]; unfold resizePeri; rw [if_neg (by dsimp only; rw [hA.size, hn]; simp)]
  rw [hr] at h1 h3
  have hd : ({ c with sortThenCollide := a2, sortAxis := a3 } : PCol R).doSort = false := hA.nosort
  rw [hd] at h1 h3
  simp only [Bool.or_false] at h1 h3
  obtain ⟨K, X, hl, hg, cv⟩ := hA.ex
  have hl1 : Lists S' P.dim bb K (fun a => xNew S' a (X a)) := by
    refine ⟨fun a => ?_, fun a i b e m => by unfold xNew; dsimp only; rw [e]⟩
    have h0 := hl.st a
    rw [← hn] at h0
    exact copy_st ha h0 (hp.imp_right fun e => by rw [e]) (h1 a)
  unfold sortCollidePeri at h3
  cases a2 with
  | true =>
    simp only [Bool.not_false, Bool.not_true, Bool.and_false, Bool.false_eq_true, if_false] at h3
    obtain ⟨⟨b', I2⟩, e, h3⟩ := obind_ok h3
    obtain ⟨K', hl2, hg2, g2, _⟩ := sort3 ha hl1 e
    obtain ⟨k1, k2⟩ := swept (c := { c with sortThenCollide := true, sortAxis := a3, bb := bb, mn := boxLo S' mn, mx := boxHi S' mx, doSort := false }) ha
      hl2 hg2 hA.per (by dsimp only; rw [hA.size, hn]) rfl (o1 := mn) (o2 := mx) (I := I2) h3
    exact ⟨fun _ => k1, mn, mx, I1, h2, g2.trans k2⟩
  | false =>
    simp only [Bool.not_false, Bool.and_true, if_true] at h3
    obtain ⟨⟨b', I2⟩, e, h3⟩ := obind_ok h3
    simp only [Option.some.injEq, Res.ok.injEq, Prod.mk.injEq] at h3
    obtain ⟨rfl, rfl⟩ := h3
    obtain ⟨K', hl2, hg2, g2, tr⟩ := sort3 ha hl1 e
    refine ⟨fun hs => ⟨ha.some, by dsimp only; rw [hA.size, hn], hA.per, rfl, K', _, hl2, hg2, ?_⟩, mn, mx, I1, h2, g2⟩
    rcases hs with hs | ⟨hel, hj⟩
    · cases hs
    intro i j m hij he hp'
    have hnr := near_of_pos ha hl2 hg2 he.1 he.right hp' mn mx
    by_cases hold : ∀ a, K a (i, true) < K a (j, false) + (2 * S'.n : Nat) * m a ∧ K a (j, true) + (2 * S'.n : Nat) * m a < K a (i, false)
    · rw [hn] at hold
      obtain ⟨e, hem, hee⟩ := pfound_iff.1 (hj i j (cv i j m hij (hel i j he) hold))
      refine g2.mono (pfound_iff.2 ⟨e, (condErase_ok h2).2 e hem (Or.inr ?_), hee⟩)
      rcases hee with ⟨ea, eb⟩ | ⟨ea, eb⟩
      · rw [ea, eb]
        rcases C30_exact _ P.dim i j (perOk ha he.1 he.right mn mx).1 (perOk ha he.1 he.right mn mx).2 with ⟨d, e, _⟩ | ⟨_, e⟩
        · exact ⟨d, e⟩
        · exact absurd hnr (e m)
      · rw [ea, eb]
        rcases C30_exact _ P.dim j i (perOk ha he.right he.1 mn mx).1 (perOk ha he.right he.1 mn mx).2 with ⟨d, e, _⟩ | ⟨_, e⟩
        · exact ⟨d, e⟩
        · exact absurd (fun a => (hnr a).swap) (e fun a => -m a)
    · have bi := (boxed_of he.1).1
      have bj := (boxed_of he.right).1
      have li : i < S'.n := by obtain ⟨b, bb, h1, _⟩ := he.1; exact ha.range i (by rw [h1]; simp)
      have lj : j < S'.n := by obtain ⟨b, bb, h1, _⟩ := he.right; exact ha.range j (by rw [h1]; simp)
      rw [not_forall] at hold
      obtain ⟨a, hold⟩ := hold
      have tra := tr rfl a
      refine found_of_rec ha he hnr ?_
      by_cases c1 : K a (i, true) < K a (j, false) + (2 * S'.n : Nat) * m a
      · have c2 : ¬ K a (j, true) + (2 * S'.n : Nat) * m a < K a (i, false) := fun c2 => hold ⟨c1, c2⟩
        refine Or.inr ?_
        have hne : K a (j, true) + (2 * S'.n : Nat) * m a ≠ K a (i, false) := fun e => by
          have := (hl1.st a).modInj (κ := (i, false)) (κ' := (j, true)) li lj e.symm
          exact absurd (congrArg Prod.fst this) hij
        exact tra j i (-m a) (Ne.symm hij) bj bi lj li (by rw [mul_neg]; omega) (by rw [mul_neg]; have := (hp' a).2; omega)
      · refine Or.inl ?_
        have hne : K a (i, true) ≠ K a (j, false) + (2 * S'.n : Nat) * m a := fun e => by
          have := (hl1.st a).modInj (κ := (i, true)) (κ' := (j, false)) li lj e
          exact absurd (congrArg Prod.fst this) hij
        exact tra i j (m a) hij bi bj li lj (by omega) (hp' a).1

end Verif.Peri
