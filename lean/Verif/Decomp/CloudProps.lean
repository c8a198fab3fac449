import Verif.Decomp.Model

/-!
# Subdomains given by a cloud of points: C164, C165
-/
namespace Verif.Decomp
open Verif.Mech
open scoped Classical

/-! ## Finding the nearest point -/

theorem findCloudFrom_spec (p : V3) (l : List (V3 × Nat)) (d : ℝ) (w : Nat) :
    (findCloudFrom p l (d, w) = (d, w) ∧ ∀ s ∈ l, d ≤ norm3 (p - s.1)) ∨
    ∃ s ∈ l, (findCloudFrom p l (d, w)).2 = s.2 ∧ norm3 (p - s.1) < d ∧ ∀ s' ∈ l, norm3 (p - s.1) ≤ norm3 (p - s'.1) := by
  induction l generalizing d w with
  | nil => left; exact ⟨rfl, fun _ h => absurd h List.not_mem_nil⟩
  | cons s t ih =>
    obtain ⟨q, v⟩ := s
    rw [findCloudFrom]
    by_cases h : norm3 (p - q) < d
    · rw [if_pos h]
      right
      rcases ih (norm3 (p - q)) v with ⟨e, hall⟩ | ⟨sd, hsd, h1, h2, h4⟩
      · refine ⟨(q, v), List.mem_cons_self, by rw [e], h, ?_⟩
        intro sd' hs
        rcases List.mem_cons.mp hs with rfl | hs
        · exact le_rfl
        · exact hall sd' hs
      · refine ⟨sd, List.mem_cons_of_mem _ hsd, h1, h2.trans h, ?_⟩
        intro sd' hs
        rcases List.mem_cons.mp hs with rfl | hs
        · exact h2.le
        · exact h4 sd' hs
    · rw [if_neg h]
      rcases ih d w with ⟨e, hall⟩ | ⟨sd, hsd, h1, h2, h4⟩
      · left
        refine ⟨e, ?_⟩
        intro sd' hs
        rcases List.mem_cons.mp hs with rfl | hs
        · exact not_lt.mp h
        · exact hall sd' hs
      · right
        refine ⟨sd, List.mem_cons_of_mem _ hsd, h1, h2, ?_⟩
        intro sd' hs
        rcases List.mem_cons.mp hs with rfl | hs
        · exact h2.le.trans (not_lt.mp h)
        · exact h4 sd' hs

/-- C164.  The worker found for a point is that of a nearest point of the cloud, if one is within ten million.  Missing: clouds farther
away, see `C164_violated`. -/
theorem C164_nearest_partial {l : List (V3 × Nat)} {p : V3} (h : ∃ s ∈ l, norm3 (p - s.1) < 10000000) :
    ∃ s ∈ l, findCloud l p = s.2 ∧ ∀ s' ∈ l, norm3 (p - s.1) ≤ norm3 (p - s'.1) := by
  rcases findCloudFrom_spec p l 10000000 0 with ⟨_, hall⟩ | ⟨s, hs, h1, -, h4⟩
  · obtain ⟨s, hs, h⟩ := h
    exact absurd (hall s hs) (not_le.mpr h)
  · exact ⟨s, hs, h1, h4⟩

theorem norm3_vec (a b c : ℝ) : norm3 ((0 : V3) - ![a, b, c]) = Real.sqrt (a ^ 2 + b ^ 2 + c ^ 2) := by
  simp [norm3, sqNorm, dot, Fin.sum_univ_three, pow_two]

/-- Of two points the second is nearer. -/
example : findCloud [(![1, 0, 0], 1), (![0, 0, 0.5], 2)] 0 = 2 := by
  have n1 : norm3 ((0 : V3) - ![1, 0, 0]) = 1 := by rw [norm3_vec]; norm_num
  have n2 : norm3 ((0 : V3) - ![0, 0, 0.5]) = 0.5 := by
    rw [norm3_vec, show (0 : ℝ) ^ 2 + 0 ^ 2 + 0.5 ^ 2 = 0.5 ^ 2 by norm_num, Real.sqrt_sq (by norm_num)]
  simp only [findCloud, findCloudFrom, n1, n2]
  norm_num

/-- C164 is violated far from the cloud: no worker is found. -/
theorem C164_violated (w : Nat) : findCloud [(![100000000, 0, 0], w)] 0 = 0 := by
  have n1 : norm3 ((0 : V3) - ![100000000, 0, 0]) = 100000000 := by
    rw [norm3_vec, show (100000000 : ℝ) ^ 2 + 0 ^ 2 + 0 ^ 2 = 100000000 ^ 2 by norm_num, Real.sqrt_sq (by norm_num)]
  simp only [findCloud, findCloudFrom, n1]
  norm_num

/-! ## Remote points -/

/-- The point keeps this distance from all the others. -/
def Keeps (others : List V3) (p : V3) (r : ℝ) : Prop := ∀ q ∈ others, r ≤ norm3 (p - q)

theorem nearest_foldl (others : List V3) (p : V3) (d r : ℝ) :
    r ≤ others.foldl (fun d q => if norm3 (p - q) < d then norm3 (p - q) else d) d ↔ r ≤ d ∧ Keeps others p r := by
  induction others generalizing d with
  | nil => simp [Keeps]
  | cons q t ih =>
    rw [List.foldl_cons, ih]
    simp only [Keeps, List.mem_cons, forall_eq_or_imp]
    split_ifs with h
    · constructor
      · rintro ⟨a, b⟩; exact ⟨by linarith, a, b⟩
      · rintro ⟨-, a, b⟩; exact ⟨a, b⟩
    · constructor
      · rintro ⟨a, b⟩; exact ⟨a, by linarith [not_lt.mp h], b⟩
      · rintro ⟨a, -, b⟩; exact ⟨a, b⟩

theorem nearest_iff (others : List V3) (p : V3) (r : ℝ) : r ≤ nearestDist others p ↔ r ≤ 1000000 ∧ Keeps others p r := nearest_foldl others p _ r

theorem remote_foldl (others : List V3) (points : List V3) (sel : Option V3) (far : ℝ) :
    let r := points.foldl (fun (sel, far) p => if nearestDist others p > far then (some p, nearestDist others p) else (sel, far)) (sel, far)
    (r = (sel, far) ∧ ∀ p ∈ points, nearestDist others p ≤ far) ∨
    ∃ p ∈ points, r = (some p, nearestDist others p) ∧ far < nearestDist others p ∧ ∀ p' ∈ points, nearestDist others p' ≤ nearestDist others p := by
  induction points generalizing sel far with
  | nil => left; exact ⟨rfl, fun _ h => absurd h List.not_mem_nil⟩
  | cons s t ih =>
    rw [List.foldl_cons]
    by_cases h : nearestDist others s > far
    · simp only [if_pos h]
      right
      rcases ih (some s) (nearestDist others s) with ⟨e, hall⟩ | ⟨p, hp, h1, h2, h4⟩
      · refine ⟨s, List.mem_cons_self, e, h, ?_⟩
        intro sd' hs
        rcases List.mem_cons.mp hs with rfl | hs
        · exact le_rfl
        · exact hall sd' hs
      · refine ⟨p, List.mem_cons_of_mem _ hp, h1, by linarith, ?_⟩
        intro sd' hs
        rcases List.mem_cons.mp hs with rfl | hs
        · exact h2.le
        · exact h4 sd' hs
    · simp only [if_neg h]
      rcases ih sel far with ⟨e, hall⟩ | ⟨p, hp, h1, h2, h4⟩
      · left
        refine ⟨e, ?_⟩
        intro sd' hs
        rcases List.mem_cons.mp hs with rfl | hs
        · exact not_lt.mp h
        · exact hall sd' hs
      · right
        refine ⟨p, List.mem_cons_of_mem _ hp, h1, h2, ?_⟩
        intro sd' hs
        rcases List.mem_cons.mp hs with rfl | hs
        · linarith [not_lt.mp h]
        · exact h4 sd' hs

theorem mostRemote_some {others points : List V3} {p : V3} (h : mostRemote others points = some p) :
    p ∈ points ∧ 0 < nearestDist others p ∧ ∀ p' ∈ points, nearestDist others p' ≤ nearestDist others p := by
  rcases remote_foldl others points none 0 with ⟨e, -⟩ | ⟨q, hq, e, h1, h2⟩
  · rw [mostRemote, e] at h; cases h
  · rw [mostRemote, e] at h
    simp only [Option.some.injEq] at h
    subst h
    exact ⟨hq, h1, h2⟩

/-- C165.  The point chosen from a sample is at least as remote as every other of the sample: whatever distance, up to a million, one of
the others keeps from the points there are and from the corners, the chosen point keeps as well, and it is on none of them.  Missing:
the sample has one point, see `C165_violated`. -/
theorem C165_choice_partial {others points : List V3} {p : V3} (h : mostRemote others points = some p) :
    p ∈ points ∧ (∀ q ∈ others, p ≠ q) ∧ ∀ p' ∈ points, ∀ r ≤ (1000000 : ℝ), Keeps others p' r → Keeps others p r := by
  obtain ⟨h1, h2, h3⟩ := mostRemote_some h
  refine ⟨h1, ?_, ?_⟩
  · rintro q hq rfl
    have := ((nearest_iff others p (nearestDist others p)).mp le_rfl).2 p hq
    rw [sub_self] at this
    have h0 : norm3 (0 : V3) = 0 := by simp [norm3, sqNorm, dot]
    linarith
  · intro p' hp' r hr hk
    exact ((nearest_iff others p r).mp (((nearest_iff others p' r).mpr ⟨hr, hk⟩).trans (h3 p' hp'))).2

/-- The farther of two points is chosen. -/
example : mostRemote [0] [![1, 0, 0], ![0, 2, 0]] = some ![0, 2, 0] := by
  have n1 : norm3 (![1, 0, 0] - (0 : V3)) = 1 := by simp [norm3, sqNorm, dot, Fin.sum_univ_three]
  have n2 : norm3 (![0, 2, 0] - (0 : V3)) = 2 := by
    have : norm3 (![0, 2, 0] - (0 : V3)) = Real.sqrt (2 ^ 2) := by simp [norm3, sqNorm, dot, Fin.sum_univ_three, pow_two]
    rw [this, Real.sqrt_sq (by norm_num)]
  simp only [mostRemote, List.foldl, nearestDist, n1, n2]
  norm_num

theorem samples_mem {mn mx : V3} (hb : ∀ a, mn a ≤ mx a) (r : Nat) (g : Nat → ℝ) (hg : ∀ n, 0 ≤ g n ∧ g n ≤ 1) {s : List V3} (h : samples mn mx r g = some s) :
    ∀ p ∈ s, ∀ a, mn a ≤ p a ∧ p a ≤ mx a := by
  induction r generalizing g with
  | zero => cases h
  | succ r ih =>
    cases r with
    | zero =>
      simp only [samples, Option.some.injEq] at h
      subst h
      intro p hp a
      rw [List.mem_singleton] at hp
      subst hp
      have h1 := hg a.val
      have h2 := hb a
      rw [draw]
      constructor <;> nlinarith
    | succ r => exact ih (fun n => g (n + 3)) (fun n => hg _) h

theorem cloudFrom_spec {mn mx : V3} (hb : ∀ a, mn a ≤ mx a) (r n i : Nat) (l : List (V3 × Nat)) (g : Nat → ℝ) (hg : ∀ n, 0 ≤ g n ∧ g n ≤ 1)
    {l' : List (V3 × Nat)} (h : cloudFrom mn mx r n i l g = .ok l')
    (h1 : ∀ s ∈ l, ∀ a, mn a ≤ s.1 a ∧ s.1 a ≤ mx a) (h2 : l.map Prod.snd = List.range' 1 i) (h3 : (l.map Prod.fst).Nodup)
    (h4 : ∀ s ∈ l, s.1 ∉ cornerPoints mn mx) :
    (∀ s ∈ l', ∀ a, mn a ≤ s.1 a ∧ s.1 a ≤ mx a) ∧ l'.map Prod.snd = List.range' 1 (i + n) ∧ (l'.map Prod.fst).Nodup ∧ ∀ s ∈ l', s.1 ∉ cornerPoints mn mx := by
  induction n generalizing i l g with
  | zero =>
    rw [cloudFrom] at h
    have h := Res.ok.inj h
    subst h
    exact ⟨h1, h2, h3, h4⟩
  | succ n ih =>
    rw [cloudFrom] at h
    cases hs : samples mn mx r g with
    | none => rw [hs] at h; cases h
    | some s =>
      rw [hs] at h
      dsimp only at h
      cases hm : mostRemote (l.map Prod.fst ++ cornerPoints mn mx) s with
      | none => rw [hm] at h; cases h
      | some p =>
        rw [hm] at h
        dsimp only at h
        obtain ⟨k1, k2, -⟩ := C165_choice_partial hm
        have hin := samples_mem hb r g hg hs p k1
        rw [show i + (n + 1) = i + 1 + n by omega]
        refine ih (i + 1) _ _ (fun n => hg _) h ?_ ?_ ?_ ?_
        · intro s hs
          rcases List.mem_append.mp hs with hs | hs
          · exact h1 s hs
          · rw [List.mem_singleton] at hs; subst hs; exact hin
        · rw [List.map_append, h2, List.range'_concat]
          simp [Nat.add_comm]
        · rw [List.map_append, List.nodup_append]
          refine ⟨h3, by simp, ?_⟩
          intro a ha b hb' e
          simp only [List.map_cons, List.map_nil, List.mem_singleton] at hb'
          subst hb'
          exact k2 a (List.mem_append_left _ ha) e.symm
        · intro s hs
          rcases List.mem_append.mp hs with hs | hs
          · exact h4 s hs
          · rw [List.mem_singleton] at hs; subst hs
            exact fun hc => k2 p (List.mem_append_right _ hc) rfl

/-- C165.  A cloud has one point for each worker, numbered 1, 2, 3, ..., all in the box, all different and none at a corner. -/
theorem C165_cloud_partial {mn mx : V3} (hb : ∀ a, mn a ≤ mx a) {numThreads realizations : Nat} {g : Nat → ℝ} (hg : ∀ n, 0 ≤ g n ∧ g n ≤ 1)
    {l : List (V3 × Nat)} (h : cloud mn mx numThreads realizations g = .ok l) :
    l.map Prod.snd = List.range' 1 numThreads ∧ (∀ s ∈ l, ∀ a, mn a ≤ s.1 a ∧ s.1 a ≤ mx a) ∧ (l.map Prod.fst).Nodup ∧ ∀ s ∈ l, s.1 ∉ cornerPoints mn mx := by
  obtain ⟨a, b, c, d⟩ := cloudFrom_spec hb _ _ 0 [] g hg h (fun _ h => absurd h List.not_mem_nil) rfl List.nodup_nil (fun _ h => absurd h List.not_mem_nil)
  rw [Nat.zero_add] at b
  exact ⟨b, a, c, d⟩

theorem le_norm3 {r : ℝ} (v : V3) (h : r ^ 2 ≤ v 0 ^ 2 + v 1 ^ 2 + v 2 ^ 2) : r ≤ norm3 v := by
  rw [norm3]
  refine Real.le_sqrt_of_sq_le ?_
  simpa [sqNorm, dot, Fin.sum_univ_three, pow_two] using h

/-- The numbers of `C165_violated`. -/
noncomputable def badDraws (n : Nat) : ℝ := if n < 3 then 0.5 else if n = 3 then 0.1 else 0

theorem draw1 : draw 0 1 badDraws = ![0.5, 0.5, 0.5] := by
  funext a
  fin_cases a <;> simp [draw, badDraws]

theorem draw2 : (draw 0 1 fun n => badDraws (n + 3)) = ![0.1, 0, 0] := by
  funext a
  fin_cases a <;> simp [draw, badDraws]

theorem corners01 : cornerPoints 0 1 = [![0, 0, 0], ![1, 0, 0], ![0, 1, 0], ![1, 1, 0], ![0, 0, 1], ![1, 0, 1], ![0, 1, 1], ![1, 1, 1]] := by
  simp [cornerPoints]

/-- C165 is violated: of two samples the second becomes the point of the cloud although the first is more remote. -/
theorem C165_violated : ∃ g : Nat → ℝ, (∀ n, 0 ≤ g n ∧ g n < 1) ∧ cloud 0 1 1 2 g = .ok [(draw 0 1 fun n => g (n + 3), 1)] ∧
    Keeps (cornerPoints 0 1) (draw 0 1 g) 0.5 ∧ ¬ Keeps (cornerPoints 0 1) (draw 0 1 fun n => g (n + 3)) 0.5 := by
  refine ⟨badDraws, ?_, ?_, ?_, ?_⟩
  · intro n
    rw [badDraws]
    split_ifs <;> norm_num
  · have hk : Keeps (cornerPoints 0 1) ![0.1, 0, 0] 0.1 := by
      rw [corners01]
      simp only [Keeps, List.mem_cons, List.not_mem_nil, or_false, forall_eq_or_imp, forall_eq]
      refine ⟨?_, ?_, ?_, ?_, ?_, ?_, ?_, ?_⟩ <;> refine le_norm3 _ ?_ <;> simp <;> norm_num
    have hpos := (nearest_iff (cornerPoints 0 1) ![0.1, 0, 0] 0.1).mpr ⟨by norm_num, hk⟩
    have hm : mostRemote (cornerPoints 0 1) [![0.1, 0, 0]] = some ![0.1, 0, 0] := by
      have h0 : nearestDist (cornerPoints 0 1) ![0.1, 0, 0] > 0 := lt_of_lt_of_le (by norm_num) hpos
      rw [mostRemote, List.foldl_cons, List.foldl_nil]
      dsimp only
      rw [if_pos h0]
    rw [cloud, cloudFrom]
    simp only [samples, draw2, List.map_nil, List.nil_append, hm, cloudFrom]
  · rw [draw1, corners01]
    simp only [Keeps, List.mem_cons, List.not_mem_nil, or_false, forall_eq_or_imp, forall_eq]
    refine ⟨?_, ?_, ?_, ?_, ?_, ?_, ?_, ?_⟩ <;> refine le_norm3 _ ?_ <;> simp <;> norm_num
  · rw [draw2, corners01]
    intro h
    have := h ![0, 0, 0] (by simp)
    have e : norm3 (![0.1, 0, 0] - ![0, 0, 0]) = Real.sqrt (0.1 ^ 2) := by simp [norm3, sqNorm, dot, Fin.sum_univ_three, pow_two]
    rw [e, Real.sqrt_sq (by norm_num)] at this
    norm_num at this

/-- So there are clouds. -/
example : ∃ g l, (∀ n, 0 ≤ g n ∧ g n ≤ 1) ∧ cloud 0 1 1 2 g = .ok l := by
  obtain ⟨g, h1, h2, -⟩ := C165_violated
  exact ⟨g, _, fun n => ⟨(h1 n).1, (h1 n).2.le⟩, h2⟩

/-- C165 is violated if no samples are asked for: there is an exception. -/
theorem C165_violated_none (mn mx : V3) (n : Nat) (g : Nat → ℝ) : cloud mn mx (n + 1) 0 g = .throws := rfl

end Verif.Decomp
