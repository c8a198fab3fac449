import Verif.Decomp.CountProps

/-!
# Finding the subdomain of a point: C163
-/
namespace Verif.Decomp
open Verif.Mech
open scoped Classical

/-! ## The smallest total distance -/

theorem findFrom_spec (p : V3) (l : List Sub) (d : ℝ) (w : Nat) :
    (findFrom p l (d, w) = (d, w) ∧ ∀ sd ∈ l, d ≤ totalDist p sd) ∨
    ∃ sd ∈ l, (findFrom p l (d, w)).2 = sd.worker ∧ totalDist p sd < d ∧ (findFrom p l (d, w)).1 = totalDist p sd ∧
      ∀ sd' ∈ l, totalDist p sd ≤ totalDist p sd' := by
  induction l generalizing d w with
  | nil => left; exact ⟨rfl, fun _ h => absurd h List.not_mem_nil⟩
  | cons s t ih =>
    rw [findFrom]
    by_cases h : totalDist p s < d
    · rw [if_pos h]
      right
      rcases ih (totalDist p s) s.worker with ⟨e, hall⟩ | ⟨sd, hsd, h1, h2, h3, h4⟩
      · refine ⟨s, List.mem_cons_self, by rw [e], h, by rw [e], ?_⟩
        intro sd' hs
        rcases List.mem_cons.mp hs with rfl | hs
        · exact le_rfl
        · exact hall sd' hs
      · refine ⟨sd, List.mem_cons_of_mem _ hsd, h1, h2.trans h, h3, ?_⟩
        intro sd' hs
        rcases List.mem_cons.mp hs with rfl | hs
        · exact h2.le
        · exact h4 sd' hs
    · rw [if_neg h]
      rcases ih d w with ⟨e, hall⟩ | ⟨sd, hsd, h1, h2, h3, h4⟩
      · left
        refine ⟨e, ?_⟩
        intro sd' hs
        rcases List.mem_cons.mp hs with rfl | hs
        · exact not_lt.mp h
        · exact hall sd' hs
      · right
        refine ⟨sd, List.mem_cons_of_mem _ hsd, h1, h2, h3, ?_⟩
        intro sd' hs
        rcases List.mem_cons.mp hs with rfl | hs
        · exact h2.le.trans (not_lt.mp h)
        · exact h4 sd' hs

theorem find_min {l : List Sub} {p : V3} (h : ∃ sd ∈ l, totalDist p sd < 10000000) :
    ∃ sd ∈ l, findSubdomain l p = sd.worker ∧ ∀ sd' ∈ l, totalDist p sd ≤ totalDist p sd' := by
  rcases findFrom_spec p l 10000000 0 with ⟨_, hall⟩ | ⟨sd, hsd, h1, -, -, h4⟩
  · obtain ⟨sd, hsd, h⟩ := h
    exact absurd (hall sd hsd) (not_le.mpr h)
  · exact ⟨sd, hsd, h1, h4⟩

/-! ## Distances to the corners of a block -/

/-- The length of the vector with these components. -/
noncomputable def len (a b c : ℝ) : ℝ := Real.sqrt (a ^ 2 + b ^ 2 + c ^ 2)

theorem norm3_len (p : V3) (a b c : ℝ) : norm3 (p - ![a, b, c]) = len (p 0 - a) (p 1 - b) (p 2 - c) := by
  simp [norm3, sqNorm, len, Fin.sum_univ_three, dot, pow_two]

theorem len_lt {a a' b c : ℝ} (h : a ^ 2 < a' ^ 2) : len a b c < len a' b c := Real.sqrt_lt_sqrt (by positivity) (by linarith)

theorem len_swap01 (a b c : ℝ) : len a b c = len b a c := by rw [len, len]; ring_nf

theorem len_swap02 (a b c : ℝ) : len a b c = len c b a := by rw [len, len]; ring_nf

theorem total_corners {sd : Sub} {lo hi : V3} (h : sd.points = corners8 lo hi) (p : V3) :
    totalDist p sd = len (p 0 - lo 0) (p 1 - lo 1) (p 2 - lo 2) + len (p 0 - hi 0) (p 1 - lo 1) (p 2 - lo 2) +
      len (p 0 - lo 0) (p 1 - hi 1) (p 2 - lo 2) + len (p 0 - hi 0) (p 1 - hi 1) (p 2 - lo 2) +
      len (p 0 - lo 0) (p 1 - lo 1) (p 2 - hi 2) + len (p 0 - hi 0) (p 1 - lo 1) (p 2 - hi 2) +
      len (p 0 - lo 0) (p 1 - hi 1) (p 2 - hi 2) + len (p 0 - hi 0) (p 1 - hi 1) (p 2 - hi 2) := by
  rw [totalDist, h]
  simp only [corners8, List.foldl, norm3_len, zero_add]

/-- If along one axis the far faces differ and the other block is nearer, its total distance is smaller. -/
theorem total_lt {sd sd' : Sub} {lo hi lo' hi' : V3} (h : sd.points = corners8 lo hi) (h' : sd'.points = corners8 lo' hi') (p : V3) (a : Fin 3)
    (hsame : ∀ b, b ≠ a → lo' b = lo b ∧ hi' b = hi b)
    (hnear : (lo' a = hi a ∧ (p a - hi' a) ^ 2 < (p a - lo a) ^ 2) ∨ (hi' a = lo a ∧ (p a - lo' a) ^ 2 < (p a - hi a) ^ 2)) :
    totalDist p sd' < totalDist p sd := by
  rw [total_corners h, total_corners h']
  fin_cases a
  · obtain ⟨e1, e2⟩ := hsame 1 (by decide)
    obtain ⟨e3, e4⟩ := hsame 2 (by decide)
    rw [e1, e2, e3, e4]
    rcases hnear with ⟨e, hlt⟩ | ⟨e, hlt⟩
    · simp only [Fin.zero_eta, Fin.isValue] at e hlt
      rw [e]
      linarith [len_lt (b := p 1 - lo 1) (c := p 2 - lo 2) hlt, len_lt (b := p 1 - hi 1) (c := p 2 - lo 2) hlt,
        len_lt (b := p 1 - lo 1) (c := p 2 - hi 2) hlt, len_lt (b := p 1 - hi 1) (c := p 2 - hi 2) hlt]
    · simp only [Fin.zero_eta, Fin.isValue] at e hlt
      rw [e]
      linarith [len_lt (b := p 1 - lo 1) (c := p 2 - lo 2) hlt, len_lt (b := p 1 - hi 1) (c := p 2 - lo 2) hlt,
        len_lt (b := p 1 - lo 1) (c := p 2 - hi 2) hlt, len_lt (b := p 1 - hi 1) (c := p 2 - hi 2) hlt]
  · obtain ⟨e1, e2⟩ := hsame 0 (by decide)
    obtain ⟨e3, e4⟩ := hsame 2 (by decide)
    rw [e1, e2, e3, e4]
    simp only [len_swap01 (p 0 - _)]
    rcases hnear with ⟨e, hlt⟩ | ⟨e, hlt⟩
    · simp only [Fin.mk_one, Fin.isValue] at e hlt
      rw [e]
      linarith [len_lt (b := p 0 - lo 0) (c := p 2 - lo 2) hlt, len_lt (b := p 0 - hi 0) (c := p 2 - lo 2) hlt,
        len_lt (b := p 0 - lo 0) (c := p 2 - hi 2) hlt, len_lt (b := p 0 - hi 0) (c := p 2 - hi 2) hlt]
    · simp only [Fin.mk_one, Fin.isValue] at e hlt
      rw [e]
      linarith [len_lt (b := p 0 - lo 0) (c := p 2 - lo 2) hlt, len_lt (b := p 0 - hi 0) (c := p 2 - lo 2) hlt,
        len_lt (b := p 0 - lo 0) (c := p 2 - hi 2) hlt, len_lt (b := p 0 - hi 0) (c := p 2 - hi 2) hlt]
  · obtain ⟨e1, e2⟩ := hsame 0 (by decide)
    obtain ⟨e3, e4⟩ := hsame 1 (by decide)
    rw [e1, e2, e3, e4]
    simp only [len_swap02 (p 0 - _)]
    rcases hnear with ⟨e, hlt⟩ | ⟨e, hlt⟩
    · simp only [Fin.reduceFinMk, Fin.isValue] at e hlt
      rw [e]
      linarith [len_lt (b := p 1 - lo 1) (c := p 0 - lo 0) hlt, len_lt (b := p 1 - hi 1) (c := p 0 - lo 0) hlt,
        len_lt (b := p 1 - lo 1) (c := p 0 - hi 0) hlt, len_lt (b := p 1 - hi 1) (c := p 0 - hi 0) hlt]
    · simp only [Fin.reduceFinMk, Fin.isValue] at e hlt
      rw [e]
      linarith [len_lt (b := p 1 - lo 1) (c := p 0 - lo 0) hlt, len_lt (b := p 1 - hi 1) (c := p 0 - lo 0) hlt,
        len_lt (b := p 1 - lo 1) (c := p 0 - hi 0) hlt, len_lt (b := p 1 - hi 1) (c := p 0 - hi 0) hlt]

/-! ## Grids without halves -/

theorem partition_mem (g : Grid) (l : List (Nat × Nat × Nat)) (w : Nat) :
    (∀ sd ∈ partition g 0 w l, ∃ c ∈ l, sd.points = corners8 (g.pt c.1 c.2.1 c.2.2) (g.pt (c.1 + 1) (c.2.1 + 1) (c.2.2 + 1))) ∧
    ∀ c ∈ l, ∃ sd ∈ partition g 0 w l, sd.points = corners8 (g.pt c.1 c.2.1 c.2.2) (g.pt (c.1 + 1) (c.2.1 + 1) (c.2.2 + 1)) := by
  induction l generalizing w with
  | nil => exact ⟨fun _ h => absurd h List.not_mem_nil, fun _ h => absurd h List.not_mem_nil⟩
  | cons c t ih =>
    obtain ⟨i, j, k⟩ := c
    rw [partition, if_neg (by omega)]
    obtain ⟨h1, h2⟩ := ih (w + 1)
    constructor
    · intro sd hsd
      rcases List.mem_cons.mp hsd with rfl | hsd
      · exact ⟨_, List.mem_cons_self, one_points ..⟩
      · obtain ⟨c, hc, h⟩ := h1 sd hsd
        exact ⟨c, List.mem_cons_of_mem _ hc, h⟩
    · intro c hc
      rcases List.mem_cons.mp hc with rfl | hc
      · exact ⟨_, List.mem_cons_self, one_points ..⟩
      · obtain ⟨sd, hsd, h⟩ := h2 c hc
        exact ⟨sd, List.mem_cons_of_mem _ hsd, h⟩

theorem linspace_step (a b : ℝ) (n i : Nat) : linspace a b n (i + 1) = linspace a b n i + (b - a) / ((n - 1 : Nat) : ℝ) := by
  rw [linspace, linspace]; push_cast; ring

/-- The index along one axis moved. -/
def setAx (c : Nat × Nat × Nat) (a : Fin 3) (v : Nat) : Nat × Nat × Nat :=
  if a = 0 then (v, c.2.1, c.2.2) else if a = 1 then (c.1, v, c.2.2) else (c.1, c.2.1, v)

/-- The index along an axis. -/
def ax (c : Nat × Nat × Nat) : Fin 3 → Nat := ![c.1, c.2.1, c.2.2]

theorem ax_set (c : Nat × Nat × Nat) (a : Fin 3) (v : Nat) (b : Fin 3) : ax (setAx c a v) b = if b = a then v else ax c b := by
  fin_cases a <;> fin_cases b <;> simp [ax, setAx]

theorem lo_ax (g : Grid) (c : Nat × Nat × Nat) (b : Fin 3) : g.pt c.1 c.2.1 c.2.2 b = linspace (g.mn b) (g.mx b) (g.n b) (ax c b) := pt_coord ..

theorem hi_ax (g : Grid) (c : Nat × Nat × Nat) (b : Fin 3) :
    g.pt (c.1 + 1) (c.2.1 + 1) (c.2.2 + 1) b = linspace (g.mn b) (g.mx b) (g.n b) (ax c b + 1) := by
  rw [pt_coord]; congr 1; fin_cases b <;> rfl

theorem mem_ax (g : Grid) (c : Nat × Nat × Nat) : c ∈ cells (g.n 0 - 1) (g.n 1 - 1) (g.n 2 - 1) ↔ ∀ b, ax c b < g.n b - 1 := by
  rw [mem_cells]
  constructor
  · rintro ⟨a, b, c⟩ d; fin_cases d <;> assumption
  · intro h; exact ⟨h 0, h 1, h 2⟩

/-- The block of smallest total distance contains the point. -/
theorem min_inside {g : Grid} (hb : ∀ a, g.mn a ≤ g.mx a) {p : V3} (hp : InBox g.mn g.mx p) {sd : Sub} (hsd : sd ∈ partitionSubdomains g 0)
    (hmin : ∀ sd' ∈ partitionSubdomains g 0, totalDist p sd ≤ totalDist p sd') : Inside sd p := by
  rw [partitionSubdomains] at hsd hmin
  obtain ⟨h1, h2⟩ := partition_mem g (cells (g.n 0 - 1) (g.n 1 - 1) (g.n 2 - 1)) 0
  obtain ⟨c, hc, hpts⟩ := h1 sd hsd
  have hc' := (mem_ax g c).mp hc
  rw [inside_iff hpts (fun a => by rw [lo_ax, hi_ax]; exact linspace_mono (hb a) _ (by omega))]
  intro a
  have hp' := hp a
  have hc0 := hc' a
  have h0 : 0 ≤ (g.mx a - g.mn a) / ((g.n a - 1 : Nat) : ℝ) := div_nonneg (by linarith [hb a]) (by positivity)
  rw [lo_ax, hi_ax]
  constructor
  · by_contra hlt
    push_neg at hlt
    -- the block on the lower side
    have hpos : 0 < ax c a := by
      rcases Nat.eq_zero_or_pos (ax c a) with e | e
      · rw [e, linspace_zero] at hlt; linarith
      · exact e
    have hm : setAx c a (ax c a - 1) ∈ cells (g.n 0 - 1) (g.n 1 - 1) (g.n 2 - 1) := by
      rw [mem_ax]
      intro b
      rw [ax_set]
      have := hc' b
      split_ifs with hba
      · subst hba; omega
      · exact this
    obtain ⟨sd', hsd', hpts'⟩ := h2 _ hm
    refine absurd (hmin sd' hsd') (not_le.mpr (total_lt hpts hpts' p a ?_ (Or.inr ⟨?_, ?_⟩)))
    · intro b hba
      simp only [lo_ax, hi_ax, ax_set, if_neg hba, and_self]
    · rw [hi_ax, lo_ax, ax_set, if_pos rfl, show ax c a - 1 + 1 = ax c a by omega]
    · rw [lo_ax, hi_ax, ax_set, if_pos rfl]
      have e1 := linspace_step (g.mn a) (g.mx a) (g.n a) (ax c a - 1)
      have e2 := linspace_step (g.mn a) (g.mx a) (g.n a) (ax c a)
      rw [show ax c a - 1 + 1 = ax c a by omega] at e1
      have hne : (g.mx a - g.mn a) / ((g.n a - 1 : Nat) : ℝ) ≠ 0 := by
        intro e
        have : g.mn a = linspace (g.mn a) (g.mx a) (g.n a) (ax c a) := by rw [linspace, e]; ring
        linarith
      have hh := lt_of_le_of_ne h0 (Ne.symm hne)
      nlinarith
  · by_contra hlt
    push_neg at hlt
    have hlast : ax c a + 1 < g.n a - 1 := by
      by_contra hcon
      have e : ax c a + 1 = g.n a - 1 := by omega
      rw [e, linspace_last _ _ (by omega)] at hlt
      linarith
    have hm : setAx c a (ax c a + 1) ∈ cells (g.n 0 - 1) (g.n 1 - 1) (g.n 2 - 1) := by
      rw [mem_ax]
      intro b
      rw [ax_set]
      have := hc' b
      split_ifs with hba
      · subst hba; omega
      · exact this
    obtain ⟨sd', hsd', hpts'⟩ := h2 _ hm
    refine absurd (hmin sd' hsd') (not_le.mpr (total_lt hpts hpts' p a ?_ (Or.inl ⟨?_, ?_⟩)))
    · intro b hba
      simp only [lo_ax, hi_ax, ax_set, if_neg hba, and_self]
    · rw [hi_ax, lo_ax, ax_set, if_pos rfl]
    · rw [lo_ax, hi_ax, ax_set, if_pos rfl]
      have e1 := linspace_step (g.mn a) (g.mx a) (g.n a) (ax c a + 1)
      have e2 := linspace_step (g.mn a) (g.mx a) (g.n a) (ax c a)
      have hne : (g.mx a - g.mn a) / ((g.n a - 1 : Nat) : ℝ) ≠ 0 := by
        intro e
        have : linspace (g.mn a) (g.mx a) (g.n a) (ax c a + 1) = g.mn a := by rw [linspace, e]; ring
        have : g.mx a = g.mn a := by
          have hn0 : ((g.n a - 1 : Nat) : ℝ) ≠ 0 := by
            have : 0 < g.n a - 1 := by omega
            exact_mod_cast this.ne'
          rcases div_eq_zero_iff.mp e with h | h
          · linarith
          · exact absurd h hn0
        linarith
      have hh := lt_of_le_of_ne h0 (Ne.symm hne)
      nlinarith

/-! ## C163 -/

theorem len_le {a b c a' b' c' : ℝ} (h : |a| ≤ a') (h' : |b| ≤ b') (h'' : |c| ≤ c') : len a b c ≤ len a' b' c' := by
  refine Real.sqrt_le_sqrt ?_
  have := sq_le_sq' (by linarith [neg_abs_le a]) ((le_abs_self a).trans h)
  have := sq_le_sq' (by linarith [neg_abs_le b]) ((le_abs_self b).trans h')
  have := sq_le_sq' (by linarith [neg_abs_le c]) ((le_abs_self c).trans h'')
  linarith

theorem total_le {sd : Sub} {lo hi mn mx : V3} (h : sd.points = corners8 lo hi) {p : V3} (hp : InBox mn mx p) (hlo : InBox mn mx lo) (hhi : InBox mn mx hi) :
    totalDist p sd ≤ 8 * norm3 (mx - mn) := by
  have e : norm3 (mx - mn) = len (mx 0 - mn 0) (mx 1 - mn 1) (mx 2 - mn 2) := by
    rw [← norm3_len]; congr 2; funext a; fin_cases a <;> rfl
  have k : ∀ q, InBox mn mx q → ∀ a, |p a - q a| ≤ mx a - mn a := by
    intro q hq a
    have := hp a
    have := hq a
    rw [abs_le]
    constructor <;> linarith
  rw [total_corners h, e]
  linarith [len_le (k lo hlo 0) (k lo hlo 1) (k lo hlo 2), len_le (k hi hhi 0) (k lo hlo 1) (k lo hlo 2),
    len_le (k lo hlo 0) (k hi hhi 1) (k lo hlo 2), len_le (k hi hhi 0) (k hi hhi 1) (k lo hlo 2),
    len_le (k lo hlo 0) (k lo hlo 1) (k hi hhi 2), len_le (k hi hhi 0) (k lo hlo 1) (k hi hhi 2),
    len_le (k lo hlo 0) (k hi hhi 1) (k hi hhi 2), len_le (k hi hhi 0) (k hi hhi 1) (k hi hhi 2)]

theorem partition_nonpos (g : Grid) (u : Int) (hu : u ≤ 0) (w : Nat) (l : List (Nat × Nat × Nat)) : partition g u w l = partition g 0 w l := by
  induction l generalizing w with
  | nil => rfl
  | cons c t ih =>
    obtain ⟨i, j, k⟩ := c
    rw [partition, partition, if_neg (by omega), if_neg (by omega), ih]

theorem global_form {fuel : Nat} {mn mx : V3} {num : Int} {decomp : Fin 3 → Nat} {g : Grid} {l : List Sub}
    (h : globaldomain fuel mn mx num decomp = some (.ok (g, l))) : ∃ u, l = partitionSubdomains g u ∧ g.mn = mn ∧ g.mx = mx := by
  rw [globaldomain] at h
  split_ifs at h with hd
  · simp only [Option.map_eq_some_iff] at h
    obtain ⟨r, -, hr⟩ := h
    rcases r with ⟨n, u⟩ | _ | _
    · rw [Res.bind_ok] at hr
      have hr := Res.ok.inj hr
      simp only [Prod.mk.injEq] at hr
      obtain ⟨rfl, rfl⟩ := hr
      exact ⟨u, rfl, rfl, rfl⟩
    · cases hr
    · cases hr
  · simp only [Option.some.injEq] at h
    have h := Res.ok.inj h
    simp only [Prod.mk.injEq] at h
    obtain ⟨rfl, rfl⟩ := h
    exact ⟨0, rfl, rfl, rfl⟩

/-- C163.  The worker found for a point of the box is one of those whose block contains the point, if no cell was halved and the box is
not too large.  Missing: halved cells, see `C163_violated_halves`, and large boxes, see `C163_violated_large`. -/
theorem C163_find_partial {fuel : Nat} {mn mx : V3} {num : Int} {decomp : Fin 3 → Nat} {g : Grid} {l : List Sub} (hb : ∀ a, mn a ≤ mx a)
    (h : globaldomain fuel mn mx num decomp = some (.ok (g, l))) (hn : ∀ a, 1 < g.n a)
    (hwhole : l.length = (g.n 0 - 1) * (g.n 1 - 1) * (g.n 2 - 1)) (hsmall : 8 * norm3 (mx - mn) < 10000000) {p : V3} (hp : InBox mn mx p) :
    ∃ sd ∈ l, findSubdomain l p = sd.worker ∧ Inside sd p := by
  obtain ⟨u, rfl, rfl, rfl⟩ := global_form h
  have hu : u ≤ 0 := by
    rw [partitionSubdomains, (partition_spec hb _ (cells_nodup _ _ _) _ _).2.2.2.2, cells_length] at hwhole
    have h0 := hn 0
    have h1 := hn 1
    have h2 := hn 2
    have : 0 < (g.n 0 - 1) * (g.n 1 - 1) * (g.n 2 - 1) := by
      have a0 : 0 < g.n 0 - 1 := by omega
      have a1 : 0 < g.n 1 - 1 := by omega
      have a2 : 0 < g.n 2 - 1 := by omega
      positivity
    omega
  have e : partitionSubdomains g u = partitionSubdomains g 0 := by rw [partitionSubdomains, partition_nonpos g u hu, partitionSubdomains]
  rw [e]
  have hlen : ∃ sd ∈ partitionSubdomains g 0, totalDist p sd < 10000000 := by
    have hc : (0, 0, 0) ∈ cells (g.n 0 - 1) (g.n 1 - 1) (g.n 2 - 1) := by
      have h0 := hn 0
      have h1 := hn 1
      have h2 := hn 2
      rw [mem_cells]
      exact ⟨by simp only; omega, by simp only; omega, by simp only; omega⟩
    obtain ⟨sd, hsd, hpts⟩ := (partition_mem g (cells (g.n 0 - 1) (g.n 1 - 1) (g.n 2 - 1)) 0).2 _ hc
    have hin : ∀ q : V3, InCell g (0, 0, 0) q → InBox g.mn g.mx q := fun q hq =>
      (cells_cover hb (fun a => by have := hn a; omega) q).mp ⟨_, hc, hq⟩
    have hle : ∀ a, g.pt 0 0 0 a ≤ g.pt (0 + 1) (0 + 1) (0 + 1) a := pt_le hb (by omega) (by omega) (by omega)
    refine ⟨sd, hsd, lt_of_le_of_lt (total_le hpts hp (hin _ fun a => ⟨le_rfl, hle a⟩) (hin _ fun a => ⟨hle a, le_rfl⟩)) hsmall⟩
  obtain ⟨sd, hsd, h1, h2⟩ := find_min hlen
  exact ⟨sd, hsd, h1, min_inside hb hp hsd h2⟩

/-- A box split by hand, and a point of it. -/
example : ∃ g l, globaldomain 0 0 1 6 ![2, 3, 1] = some (.ok (g, l)) ∧ ∃ sd ∈ l, findSubdomain l ![0.7, 0.1, 0.5] = sd.worker ∧ Inside sd ![0.7, 0.1, 0.5] := by
  set g : Grid := ⟨0, 1, fun a => (![2, 3, 1] : Fin 3 → Nat) a + 1⟩ with hg
  have h : globaldomain 0 0 1 6 ![2, 3, 1] = some (.ok (g, partitionSubdomains g 0)) := by rw [globaldomain, if_neg (by simp)]
  have hn : ∀ a, 1 < g.n a := by intro a; rw [hg]; fin_cases a <;> simp
  refine ⟨g, _, h, C163_find_partial (by intro a; simp) h hn ?_ ?_ ?_⟩
  · rw [partitionSubdomains, (partition_spec (by intro a; simp [hg]) _ (cells_nodup _ _ _) _ _).2.2.2.2, cells_length]; simp
  · have : norm3 ((1 : V3) - 0) ≤ 3 := by
      rw [norm3]
      refine Real.sqrt_le_iff.mpr ⟨by norm_num, ?_⟩
      simp [sqNorm, dot, Fin.sum_univ_three]
      norm_num
    linarith
  · intro a; fin_cases a <;> simp <;> norm_num

theorem abs_le_len (a b c : ℝ) : |a| ≤ len a b c := Real.abs_le_sqrt (by nlinarith [sq_nonneg b, sq_nonneg c])

/-- C163 is violated in large boxes: no worker is found. -/
theorem C163_violated_large : ∃ g l, globaldomain 0 0 (fun _ => 1e9) 1 ![1, 1, 1] = some (.ok (g, l)) ∧ InBox 0 (fun _ => 1e9) 0 ∧
    (∃ sd ∈ l, Inside sd 0) ∧ findSubdomain l 0 = 0 := by
  set g : Grid := ⟨0, fun _ => 1e9, fun a => (![1, 1, 1] : Fin 3 → Nat) a + 1⟩ with hg
  have h : globaldomain 0 0 (fun _ => 1e9) 1 ![1, 1, 1] = some (.ok (g, partitionSubdomains g 0)) := by rw [globaldomain, if_neg (by simp)]
  have hb : InBox 0 (fun _ => 1e9) 0 := fun a => ⟨le_rfl, by norm_num⟩
  have hn : ∀ a, 1 < g.n a := by intro a; rw [hg]; fin_cases a <;> simp
  refine ⟨g, _, h, hb, ((C161_tiles_partial (by intro a; norm_num) h hn).1 0).mpr hb, ?_⟩
  rcases findFrom_spec 0 (partitionSubdomains g 0) 10000000 0 with ⟨e, -⟩ | ⟨sd, hsd, -, h2, -⟩
  · rw [findSubdomain, e]
  · exfalso
    obtain ⟨c, hc, hpts⟩ := (partition_mem g (cells (g.n 0 - 1) (g.n 1 - 1) (g.n 2 - 1)) 0).1 sd hsd
    have hc' := (mem_ax g c).mp hc 0
    have e0 : ax c 0 = 0 := by
      have : g.n 0 - 1 = 1 := by rw [hg]; rfl
      omega
    rw [total_corners hpts] at h2
    have e1 : g.pt (c.1 + 1) (c.2.1 + 1) (c.2.2 + 1) 0 = 1e9 := by
      rw [hi_ax, e0]
      norm_num [linspace, hg]
    have k := abs_le_len ((0 : V3) 0 - g.pt (c.1 + 1) (c.2.1 + 1) (c.2.2 + 1) 0) ((0 : V3) 1 - g.pt c.1 c.2.1 c.2.2 1) ((0 : V3) 2 - g.pt c.1 c.2.1 c.2.2 2)
    have k' : (10000000 : ℝ) ≤ |(0 : V3) 0 - g.pt (c.1 + 1) (c.2.1 + 1) (c.2.2 + 1) 0| := by
      rw [e1]
      norm_num
    have pos : ∀ a b c, 0 ≤ len a b c := fun a b c => Real.sqrt_nonneg _
    linarith [pos ((0 : V3) 0 - g.pt c.1 c.2.1 c.2.2 0) ((0 : V3) 1 - g.pt c.1 c.2.1 c.2.2 1) ((0 : V3) 2 - g.pt c.1 c.2.1 c.2.2 2),
      pos ((0 : V3) 0 - g.pt c.1 c.2.1 c.2.2 0) ((0 : V3) 1 - g.pt (c.1 + 1) (c.2.1 + 1) (c.2.2 + 1) 1) ((0 : V3) 2 - g.pt c.1 c.2.1 c.2.2 2),
      pos ((0 : V3) 0 - g.pt (c.1 + 1) (c.2.1 + 1) (c.2.2 + 1) 0) ((0 : V3) 1 - g.pt (c.1 + 1) (c.2.1 + 1) (c.2.2 + 1) 1) ((0 : V3) 2 - g.pt c.1 c.2.1 c.2.2 2),
      pos ((0 : V3) 0 - g.pt c.1 c.2.1 c.2.2 0) ((0 : V3) 1 - g.pt c.1 c.2.1 c.2.2 1) ((0 : V3) 2 - g.pt (c.1 + 1) (c.2.1 + 1) (c.2.2 + 1) 2),
      pos ((0 : V3) 0 - g.pt (c.1 + 1) (c.2.1 + 1) (c.2.2 + 1) 0) ((0 : V3) 1 - g.pt c.1 c.2.1 c.2.2 1) ((0 : V3) 2 - g.pt (c.1 + 1) (c.2.1 + 1) (c.2.2 + 1) 2),
      pos ((0 : V3) 0 - g.pt c.1 c.2.1 c.2.2 0) ((0 : V3) 1 - g.pt (c.1 + 1) (c.2.1 + 1) (c.2.2 + 1) 1) ((0 : V3) 2 - g.pt (c.1 + 1) (c.2.1 + 1) (c.2.2 + 1) 2),
      pos ((0 : V3) 0 - g.pt (c.1 + 1) (c.2.1 + 1) (c.2.2 + 1) 0) ((0 : V3) 1 - g.pt (c.1 + 1) (c.2.1 + 1) (c.2.2 + 1) 1) ((0 : V3) 2 - g.pt (c.1 + 1) (c.2.1 + 1) (c.2.2 + 1) 2)]

/-- C163 is violated if a cell was halved: a box is split into five, and a worker is found for a point although its block does not
contain the point. -/
theorem C163_violated_halves : ∃ g l, globaldomain 1 0 ![0.012, 0.012, 0.006] 5 0 = some (.ok (g, l)) ∧
    ∃ p, InBox 0 ![0.012, 0.012, 0.006] p ∧ ∀ sd ∈ l, findSubdomain l p = sd.worker → ¬ Inside sd p := by
  set mx : V3 := ![0.012, 0.012, 0.006] with hmx
  set g : Grid := ⟨0, mx, ![3, 3, 2]⟩ with hg
  have hlt : ∀ a, (0 : V3) a < mx a := by intro a; rw [hmx]; fin_cases a <;> simp <;> norm_num
  have f0 : ⌊200 * (mx 0 - (0 : V3) 0)⌋₊ = 2 := by rw [hmx]; simp; norm_num [Nat.floor_eq_iff]
  have f1 : ⌊200 * (mx 1 - (0 : V3) 1)⌋₊ = 2 := by rw [hmx]; simp; norm_num [Nat.floor_eq_iff]
  have f2 : ⌊200 * (mx 2 - (0 : V3) 2)⌋₊ = 1 := by rw [hmx]; simp; norm_num [Nat.floor_eq_iff]
  have hest : (Parts.mk 2 2 1).est = 4 := by simp [Parts.est]
  have h : globaldomain 1 0 mx 5 0 = some (.ok (g, partitionSubdomains g 1)) := by
    rw [globaldomain, if_pos (by simp), side_eq hlt, f0, f1, f2, decompLoop]
    have : decompStep 5 ⟨(2 : Nat), (2 : Nat), (1 : Nat)⟩ = none := by
      rw [show ((2 : Nat) : ℝ) = 2 by norm_num, show ((1 : Nat) : ℝ) = 1 by norm_num]
      rw [step_small (by rw [hest]; norm_num), if_pos]
      rw [hest]
      simp
    rw [this]
    simp [hg]
    rw [show (Parts.mk 2 2 1).est = 4 from hest]
    rfl
  have hl : partitionSubdomains g 1 = [makeFirst g 0 0 0 1, makeSecond g 0 0 0 2, makeOne g 0 1 0 3, makeOne g 1 0 0 4, makeOne g 1 1 0 5] := by
    have : cells (g.n 0 - 1) (g.n 1 - 1) (g.n 2 - 1) = [(0, 0, 0), (0, 1, 0), (1, 0, 0), (1, 1, 0)] := rfl
    rw [partitionSubdomains, this]
    simp [partition]
  have hb : ∀ a, g.mn a ≤ g.mx a := fun a => (hlt a).le
  set p : V3 := ![0.0062, 0.003, 0.003] with hpd
  have hp : InBox 0 mx p := by intro a; rw [hmx, hpd]; fin_cases a <;> simp <;> norm_num
  refine ⟨g, _, h, p, hp, ?_⟩
  rw [hl]
  have c0 : p 0 = 0.0062 := rfl
  have c1 : p 1 = 0.003 := rfl
  have gx : ∀ i j k, g.pt i j k 0 = i * 0.006 := by intro i j k; simp [pt_coord, linspace, hg, hmx]; norm_num
  have gy : ∀ i j k, g.pt i j k 1 = j * 0.006 := by intro i j k; simp [pt_coord, linspace, hg, hmx]; norm_num
  have hlt24 : totalDist p (makeSecond g 0 0 0 2) < totalDist p (makeOne g 1 0 0 4) := by
    refine total_lt (one_points ..) (second_points ..) p 0 ?_ (Or.inr ⟨?_, ?_⟩)
    · intro b hb
      fin_cases b
      · exact absurd rfl hb
      · exact ⟨rfl, rfl⟩
      · exact ⟨rfl, rfl⟩
    · rfl
    · rw [(half_coord g 0 0 0).1, gx, gx, gx, c0]; norm_num
  have hfin : ∃ sd ∈ [makeFirst g 0 0 0 1, makeSecond g 0 0 0 2, makeOne g 0 1 0 3, makeOne g 1 0 0 4, makeOne g 1 1 0 5], totalDist p sd < 10000000 := by
    have hc : (1, 0, 0) ∈ cells (g.n 0 - 1) (g.n 1 - 1) (g.n 2 - 1) := mem_cells.mpr ⟨by decide, by decide, by decide⟩
    have hin : ∀ q : V3, InCell g (1, 0, 0) q → InBox g.mn g.mx q := fun q hq =>
      (cells_cover hb (fun a => by fin_cases a <;> decide) q).mp ⟨_, hc, hq⟩
    have hle : ∀ a, g.pt 1 0 0 a ≤ g.pt (1 + 1) (0 + 1) (0 + 1) a := pt_le hb (by omega) (by omega) (by omega)
    refine ⟨makeOne g 1 0 0 4, by simp, lt_of_le_of_lt (total_le (one_points ..) hp (hin _ fun a => ⟨le_rfl, hle a⟩) (hin _ fun a => ⟨hle a, le_rfl⟩)) ?_⟩
    have : norm3 (mx - (0 : V3)) ≤ 3 := by
      rw [norm3]
      refine Real.sqrt_le_iff.mpr ⟨by norm_num, ?_⟩
      simp [sqNorm, dot, Fin.sum_univ_three, hmx]
      norm_num
    have e : 8 * norm3 (g.mx - g.mn) = 8 * norm3 (mx - (0 : V3)) := rfl
    show 8 * norm3 (mx - (0 : V3)) < 10000000
    linarith
  obtain ⟨sd, hsd, hw, hmin⟩ := find_min hfin
  have hsd4 : sd.worker ≠ 4 := by
    have h2 := hmin (makeSecond g 0 0 0 2) (by simp)
    simp only [List.mem_cons, List.not_mem_nil, or_false] at hsd
    rcases hsd with rfl | rfl | rfl | rfl | rfl
    · show 1 ≠ 4; decide
    · show 2 ≠ 4; decide
    · show 3 ≠ 4; decide
    · linarith
    · show 5 ≠ 4; decide
  intro sd' hsd' hw' hin
  rw [hw] at hw'
  simp only [List.mem_cons, List.not_mem_nil, or_false] at hsd'
  rcases hsd' with rfl | rfl | rfl | rfl | rfl
  · have := (((first_inside hb 0 0 0 1 p).1.mp hin).1 0).2
    simp only [gx, c0] at this; norm_num at this
  · have := (((second_inside hb 0 0 0 2 p).1.mp hin).1 0).2
    simp only [gx, c0] at this; norm_num at this
  · have := ((one_inside hb 0 1 0 3 p).1.mp hin 0).2
    simp only [gx, c0] at this; norm_num at this
  · exact hsd4 hw'
  · have := ((one_inside hb 1 1 0 5 p).1.mp hin 1).1
    simp only [gy, c1] at this; norm_num at this

end Verif.Decomp
