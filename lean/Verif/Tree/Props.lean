import Verif.Tree.Outcome
import Verif.Tree.Levels
import Mathlib.Data.List.Nodup

/-!
# Properties of the recursive bisection (C49, C75, C76)

`Reach c items s`: some interleaving of the workers `1 … c.n` leads from the start (worker 1
holds `items`) to `s`.  A worker which stands after its scattering has program counter
`2 * c.levels`.
-/

namespace Verif.Tree

variable {α : Type}

/-! ### Specification -/

/-- All workers are through. -/
def Finished (c : Cfg α) (s : St α) : Prop :=
  ∀ r, 1 ≤ r → r ≤ c.n → s.pc r = progLen c.levels

/-- The lists of the workers `1 … n`, one after the other. -/
def concat (n : Nat) (parts : Nat → List α) : List α :=
  (List.range n).flatMap fun i => parts (i + 1)

/-- `parts` are the lists the workers hold after the scattering, in every run. -/
def ScatterResult (c : Cfg α) (items : List α) (parts : Nat → List α) : Prop :=
  ∀ s, Reach c items s → ∀ r, 1 ≤ r → r ≤ c.n → s.pc r = 2 * c.levels → s.data r = parts r

/-- The first worker holds `result` at the end, in every run. -/
def GatherResult (c : Cfg α) (items : List α) (result : List α) : Prop :=
  ∀ s, Reach c items s → Finished c s → s.data 1 = result

theorem scatter_V (c : Cfg α) (items : List α) : ScatterResult c items (V c items c.levels) := by
  intro s h r h1 h2 h3
  rw [(inv_reach h).data r h1 h2, h3, D_even (Nat.le_refl _)]

theorem gather_G (c : Cfg α) (items : List α) (hn : 1 ≤ c.n) :
    GatherResult c items (G c items c.levels 1) := by
  intro s h hf
  rw [(inv_reach h).data 1 (Nat.le_refl _) hn, hf 1 (Nat.le_refl _) hn]
  unfold progLen
  rw [show 4 * c.levels + 1 = 2 * c.levels + 1 + 2 * c.levels by omega, D_g]

/-! ### C75: no deadlock, nothing lost, whatever the number of workers and levels -/

/-- From every reachable state in which some worker is not through, some worker can go on,
and if its next action is a send then its partner stands at the matching receive: the run
cannot deadlock even if MPI buffers nothing. -/
theorem C75_no_deadlock (c : Cfg α) (items : List α) (hn : 1 ≤ c.n) (s : St α)
    (h : Reach c items s) (hu : ¬ Finished c s) :
    ∃ r, 1 ≤ r ∧ r ≤ c.n ∧ (step c s r).isSome ∧
      ∀ d, sendsTo c s r = some d → waitsFor c s d r := by
  have hi := inv_reach h
  obtain ⟨r, h1, h2, h3⟩ := progress hi hn (by
    by_contra hne
    apply hu
    intro r h1 h2
    have := hi.len r
    by_contra h3
    exact hne ⟨r, h1, h2, by omega⟩)
  exact ⟨r, h1, h2, h3.1, h3.2⟩

/-- Every step brings the end nearer: the number of remaining program points of all workers
drops by exactly one, so no run is infinite. -/
theorem C75_terminates (c : Cfg α) (s s' : St α) (r : Nat) (hr : 1 ≤ r) (hrn : r ≤ c.n)
    (h : step c s r = some (.ok s')) :
    (∑ i ∈ Finset.range c.n, (progLen c.levels - s'.pc (i + 1))) + 1 =
      ∑ i ∈ Finset.range c.n, (progLen c.levels - s.pc (i + 1)) := by
  obtain ⟨h1, h2⟩ := step_pc h
  have hm : r - 1 ∈ Finset.range c.n := Finset.mem_range.mpr (by omega)
  rw [← Finset.add_sum_erase _ _ hm, ← Finset.add_sum_erase (Finset.range c.n) _ hm]
  have e : ∑ x ∈ (Finset.range c.n).erase (r - 1), (progLen c.levels - s'.pc (x + 1)) =
      ∑ x ∈ (Finset.range c.n).erase (r - 1), (progLen c.levels - s.pc (x + 1)) := by
    refine Finset.sum_congr rfl fun x hx => ?_
    rw [h2, set_ne]
    have := Finset.ne_of_mem_erase hx
    omega
  rw [e, h2, show r - 1 + 1 = r by omega, set_self]
  omega

/-- With at least as many items as workers no exception is raised. -/
theorem C75_no_exception (c : Cfg α) (items : List α) (hd : 0 < c.ndim)
    (hN : c.n ≤ items.length) (s : St α) (h : Reach c items s) (r : Nat) (hr : 1 ≤ r)
    (hrn : r ≤ c.n) (o : Res (St α)) (ho : step c s r = some o) : ∃ s', o = .ok s' :=
  no_fail (inv_reach h) hd hN hr hrn ho

/-- The workers' lists after the scattering do not depend on the interleaving, and together
they hold every item exactly as often as the list which was scattered. -/
theorem C75_each_item_once (c : Cfg α) (items : List α) (hn : 1 ≤ c.n) :
    ∃ parts, ScatterResult c items parts ∧ (concat c.n parts).Perm items := by
  refine ⟨V c items c.levels, scatter_V c items, ?_⟩
  rw [← Multiset.coe_eq_coe, ← total_V c items hn c.levels, total_flatMap]
  rfl

/-- Every message which was sent is received: when all workers are through nothing is in
flight. -/
theorem C75_all_received (c : Cfg α) (items : List α) (s : St α) (h : Reach c items s)
    (hf : Finished c s) (a b : Nat) : s.chan a b = [] :=
  chan_empty (inv_reach h) hf a b

/-- `s` steps lead to a state in which everybody is through, when there are enough items. -/
theorem reach_finished (c : Cfg α) (items : List α) (hn : 1 ≤ c.n) (hd : 0 < c.ndim)
    (hN : c.n ≤ items.length) : ∀ k (s : St α), Reach c items s →
    (∑ i ∈ Finset.range c.n, (progLen c.levels - s.pc (i + 1))) = k →
    ∃ s', Reach c items s' ∧ Finished c s' ∧
      ∀ p r, 1 ≤ r → r ≤ c.n → s.pc r ≤ p → p ≤ progLen c.levels →
        ∃ s'', Reach c items s'' ∧ s''.pc r = p := by
  intro k
  induction k with
  | zero =>
    intro s h hk
    have hf : Finished c s := by
      intro r h1 h2
      have hle := (inv_reach h).len r
      have := (Finset.sum_eq_zero_iff.mp hk) (r - 1) (Finset.mem_range.mpr (by omega))
      rw [show r - 1 + 1 = r by omega] at this
      omega
    refine ⟨s, h, hf, ?_⟩
    intro p r h1 h2 h3 h4
    exact ⟨s, h, by have := hf r h1 h2; omega⟩
  | succ k ih =>
    intro s h hk
    have hu : ¬ Finished c s := by
      intro hf
      have : (∑ i ∈ Finset.range c.n, (progLen c.levels - s.pc (i + 1))) = 0 := by
        refine Finset.sum_eq_zero fun i hi => ?_
        have := Finset.mem_range.mp hi
        rw [hf (i + 1) (by omega) (by omega)]; omega
      omega
    obtain ⟨r, h1, h2, h3, -⟩ := C75_no_deadlock c items hn s h hu
    obtain ⟨o, ho⟩ := Option.isSome_iff_exists.mp h3
    obtain ⟨s', rfl⟩ := C75_no_exception c items hd hN s h r h1 h2 o ho
    have ht := C75_terminates c s s' r h1 h2 ho
    obtain ⟨t, ht1, ht2, ht3⟩ := ih s' (Reach.step h h1 h2 ho) (by omega)
    refine ⟨t, ht1, ht2, ?_⟩
    intro p x hx1 hx2 hx3 hx4
    by_cases he : s.pc x = p
    · exact ⟨s, h, he⟩
    · refine ht3 p x hx1 hx2 ?_ hx4
      rw [(step_pc ho).2]
      by_cases hxr : x = r
      · subst hxr; rw [set_self]; omega
      · rw [set_ne _ _ hxr]; exact hx3

/-- With at least as many items as workers, some run does reach the end (and by the theorems
above, every run does). -/
theorem C75_ends (c : Cfg α) (items : List α) (hn : 1 ≤ c.n) (hd : 0 < c.ndim)
    (hN : c.n ≤ items.length) : ∃ s, Reach c items s ∧ Finished c s := by
  obtain ⟨s, h1, h2, -⟩ := reach_finished c items hn hd hN _ _ Reach.init rfl
  exact ⟨s, h1, h2⟩

/-- The first worker ends with every item once, marked with the worker which held it. -/
theorem C75_gathered (c : Cfg α) (items : List α) (hn : 1 ≤ c.n) (parts : Nat → List α)
    (hd : 0 < c.ndim) (hN : c.n ≤ items.length) (hp : ScatterResult c items parts) :
    ∃ result, GatherResult c items result ∧
      result.Perm (concat c.n fun r => (parts r).map (c.mark r)) := by
  refine ⟨G c items c.levels 1, gather_G c items hn, ?_⟩
  have he : ∀ r, 1 ≤ r → r ≤ c.n → parts r = V c items c.levels r := by
    intro r h1 h2
    obtain ⟨-, -, -, hreach⟩ := reach_finished c items hn hd hN _ _ Reach.init rfl
    obtain ⟨s, h3, h4⟩ := hreach (2 * c.levels) r h1 h2 (Nat.zero_le _) (by unfold progLen; omega)
    rw [← hp s h3 r h1 h2 h4, scatter_V c items s h3 r h1 h2 h4]
  rw [← Multiset.coe_eq_coe, G_last c items hn, total_flatMap]
  unfold concat
  congr 1
  refine List.flatMap_congr fun i hi => ?_
  have := List.mem_range.mp hi
  show List.map _ _ = List.map _ _
  rw [he (i + 1) (by omega) (by omega)]

/-- What the user sees: the spheres have distinct ids, every worker replaces an item by its
id and the worker's rank, the master goes through the gathered list and sets the subdomain of
the bodies.  Then every sphere's subdomain is the worker holding it, a number between 1 and
the number of workers, and no other body's subdomain changes. -/
theorem C75_assigned (c : Cfg α) (items : List α) (hn : 1 ≤ c.n) (hd : 0 < c.ndim)
    (hN : c.n ≤ items.length) (id rk : α → Nat) (hid : ∀ r x, id (c.mark r x) = id x)
    (hrk : ∀ r x, rk (c.mark r x) = r) (hnd : (items.map id).Nodup) (sub : Nat → Nat)
    (s : St α) (h : Reach c items s) (hf : Finished c s) :
    (∀ x ∈ items, ∃ r, 1 ≤ r ∧ r ≤ c.n ∧
      (∀ s', Reach c items s' → s'.pc r = 2 * c.levels → x ∈ s'.data r) ∧
      assign sub ((s.data 1).map fun y => (id y, rk y)) (id x) = r) ∧
    (∀ b, b ∉ items.map id → assign sub ((s.data 1).map fun y => (id y, rk y)) b = sub b) := by
  have hperm : (s.data 1).Perm (concat c.n fun r => (V c items c.levels r).map (c.mark r)) := by
    rw [gather_G c items hn s h hf, ← Multiset.coe_eq_coe, G_last c items hn, total_flatMap]
    rfl
  have hparts : (concat c.n (V c items c.levels)).Perm items := by
    rw [← Multiset.coe_eq_coe, ← total_V c items hn c.levels, total_flatMap]
    rfl
  have hids : ((s.data 1).map id).Perm (items.map id) := by
    refine (hperm.map id).trans ?_
    refine List.Perm.trans ?_ (hparts.map id)
    unfold concat
    rw [List.map_flatMap, List.map_flatMap]
    refine List.Perm.of_eq (List.flatMap_congr fun i _ => ?_)
    rw [List.map_map]
    exact List.map_congr_left fun x _ => hid _ x
  have hnd' : ((s.data 1).map id).Nodup := hids.nodup_iff.mpr hnd
  -- the loop of the master on a list with distinct ids
  have hloop : ∀ (l : List α) (sub : Nat → Nat), (l.map id).Nodup →
      (∀ y ∈ l, assign sub (l.map fun y => (id y, rk y)) (id y) = rk y) ∧
      (∀ b, b ∉ l.map id → assign sub (l.map fun y => (id y, rk y)) b = sub b) := by
    intro l
    induction l with
    | nil => intro sub _; exact ⟨fun y hy => absurd hy (by simp), fun b _ => rfl⟩
    | cons z l ih =>
      intro sub hz
      rw [List.map_cons, List.nodup_cons] at hz
      obtain ⟨i1, i2⟩ := ih (set sub (id z) (rk z)) hz.2
      refine ⟨?_, ?_⟩
      · intro y hy
        show assign (set sub (id z) (rk z)) _ _ = _
        rcases List.mem_cons.mp hy with e | e
        · subst e; rw [i2 _ hz.1, set_self]
        · exact i1 y e
      · intro b hb
        rw [List.map_cons, List.mem_cons, not_or] at hb
        show assign (set sub (id z) (rk z)) _ _ = _
        rw [i2 b hb.2, set_ne _ _ hb.1]
  obtain ⟨l1, l2⟩ := hloop (s.data 1) sub hnd'
  refine ⟨?_, ?_⟩
  · intro x hx
    have hx' := hparts.mem_iff.mpr hx
    unfold concat at hx'
    obtain ⟨i, hi, hxi⟩ := List.mem_flatMap.mp hx'
    have hi := List.mem_range.mp hi
    refine ⟨i + 1, by omega, by omega, ?_, ?_⟩
    · intro s' hs' hpc
      rw [scatter_V c items s' hs' (i + 1) (by omega) (by omega) hpc]; exact hxi
    · have hmem : c.mark (i + 1) x ∈ s.data 1 := by
        refine hperm.mem_iff.mpr (List.mem_flatMap.mpr ⟨i, List.mem_range.mpr hi, ?_⟩)
        exact List.mem_map_of_mem hxi
      have := l1 _ hmem
      rw [hid, hrk] at this
      exact this
  · intro b hb
    exact l2 b (fun h' => hb (hids.mem_iff.mp h'))

/-! A concrete run: three workers, four spheres with ids 10 … 13 at positions 3, 1, 2, 0. -/

/-- Items are (id, position, rank). -/
def exCfg (n : Nat) (L : Nat) : Cfg (Nat × Nat × Nat) where
  n := n
  levels := L
  ndim := 1
  le := fun _ a b => decide (a.2.1 ≤ b.2.1)
  mark := fun r x => (x.1, x.2.1, r)

def exItems : List (Nat × Nat × Nat) := [(10, 3, 0), (11, 1, 0), (12, 2, 0), (13, 0, 0)]

example : 1 ≤ (exCfg 3 2).n ∧ 0 < (exCfg 3 2).ndim ∧ (exCfg 3 2).n ≤ exItems.length ∧
    (exItems.map fun x => x.1).Nodup ∧ ∃ s, Reach (exCfg 3 2) exItems s ∧ Finished (exCfg 3 2) s :=
  ⟨by decide, by decide, by decide, by decide, C75_ends _ _ (by decide) (by decide) (by decide)⟩

/-! ### C76: the parts are separated by planes normal to an axis -/

theorem V_sub (c : Cfg α) (items : List α) : ∀ l l' r, 1 ≤ r → l' ≤ l →
    ∀ x ∈ V c items l r, x ∈ V c items l' ((r - 1) % 2 ^ l' + 1) := by
  intro l
  induction l with
  | zero =>
    intro l' r hr hl x hx
    have : l' = 0 := by omega
    subst this
    rw [Nat.pow_zero, Nat.mod_one]
    simp only [V] at hx ⊢
    split at hx
    · simpa using hx
    · cases hx
  | succ l ih =>
    intro l' r hr hl x hx
    by_cases hb : 2 ^ (l + 1) < r
    · rw [V_empty c items _ _ hb] at hx; cases hx
    · by_cases he : l' = l + 1
      · subst he
        rw [Nat.mod_eq_of_lt (by omega)]
        rw [show r - 1 + 1 = r by omega]; exact hx
      · simp only [V] at hx
        split at hx
        · refine ih l' r hr (by omega) x ?_
          split at hx
          · exact (halves_perm c _ l).subset (List.mem_append_left _ hx)
          · exact hx
        · rename_i h1
          split at hx
          · have := ih l' (r - 2 ^ l) (by omega) (by omega) x
              ((halves_perm c _ l).subset (List.mem_append_right _ hx))
            have e : (r - 2 ^ l - 1) % 2 ^ l' = (r - 1) % 2 ^ l' := by
              obtain ⟨q, hq⟩ : 2 ^ l' ∣ 2 ^ l := Nat.pow_dvd_pow 2 (by omega)
              rw [show r - 1 = (r - 2 ^ l - 1) + 2 ^ l by omega, hq, Nat.add_mul_mod_self_left]
            rw [e] at this
            exact this
          · exact ih l' r hr (by omega) x hx

/-- One split: everything kept comes before everything sent, along the axis of the level. -/
theorem C76_split_separates (c : Cfg α) (ax : Nat)
    (htr : ∀ x y z, c.le ax x y = true → c.le ax y z = true → c.le ax x z = true)
    (hto : ∀ x y, (c.le ax x y || c.le ax y x) = true)
    (xs keep snd : List α) (level : Nat) (hax : ax = level % c.ndim)
    (h : processData c xs level = .ok (keep, snd)) :
    ∀ a ∈ keep, ∀ b ∈ snd, c.le ax a b = true := by
  have e := processData_ok h
  subst hax
  have hs : (sortData c xs (level % c.ndim)).Pairwise (fun a b => c.le _ a b = true) :=
    List.pairwise_mergeSort htr hto xs
  have e1 := (Prod.mk.inj e).1
  have e2 := (Prod.mk.inj e).2
  generalize sortData c xs (level % c.ndim) = ys at *
  rw [← List.take_append_drop (ys.length / 2) ys, List.pairwise_append] at hs
  intro a ha b hb
  rw [e1] at ha
  rw [e2] at hb
  refine hs.2.2 a ha b ?_
  rcases List.mem_append.mp hb with h' | h'
  · exact List.mem_of_mem_drop (i := 1) (by rw [List.drop_drop]; exact h')
  · cases hk : ys[ys.length / 2]? with
    | none => rw [hk] at h'; cases h'
    | some y =>
      rw [hk] at h'
      have : b = y := by simpa using h'
      subst this
      obtain ⟨hlt, hy⟩ := List.getElem?_eq_some_iff.mp hk
      rw [List.drop_eq_getElem_cons hlt, hy]
      exact List.mem_cons_self

/-- Any two workers' parts are separated along one of the axes: all items of one come before
all items of the other. -/
theorem C76_parts_separated (c : Cfg α) (items : List α) (hd : 0 < c.ndim)
    (htr : ∀ ax x y z, c.le ax x y = true → c.le ax y z = true → c.le ax x z = true)
    (hto : ∀ ax x y, (c.le ax x y || c.le ax y x) = true)
    (s s' : St α) (hs : Reach c items s) (hs' : Reach c items s') (r r' : Nat) (h1 : 1 ≤ r) (h2 : r ≤ c.n)
    (h1' : 1 ≤ r') (h2' : r' ≤ c.n) (hne : r ≠ r')
    (hpc : s.pc r = 2 * c.levels) (hpc' : s'.pc r' = 2 * c.levels) :
    ∃ ax, ax < c.ndim ∧
      ((∀ a ∈ s.data r, ∀ b ∈ s'.data r', c.le ax a b = true) ∨
       (∀ a ∈ s.data r, ∀ b ∈ s'.data r', c.le ax b a = true)) := by
  rw [scatter_V c items s hs r h1 h2 hpc, scatter_V c items s' hs' r' h1' h2' hpc']
  clear hs hs' hpc hpc'
  by_cases hb : 2 ^ c.levels < r
  · refine ⟨0, hd, Or.inl ?_⟩
    rw [V_empty c items _ _ hb]; intro a ha; cases ha
  by_cases hb' : 2 ^ c.levels < r'
  · refine ⟨0, hd, Or.inl ?_⟩
    rw [V_empty c items _ _ hb']; intro a _ b hbb; cases hbb
  -- the first level at which the two differ
  have hex : ∃ l, l < c.levels ∧ (r - 1) % 2 ^ l = (r' - 1) % 2 ^ l ∧
      (r - 1) % 2 ^ (l + 1) ≠ (r' - 1) % 2 ^ (l + 1) := by
    have : ∀ L, (r - 1) % 2 ^ L ≠ (r' - 1) % 2 ^ L → ∃ l, l < L ∧
        (r - 1) % 2 ^ l = (r' - 1) % 2 ^ l ∧ (r - 1) % 2 ^ (l + 1) ≠ (r' - 1) % 2 ^ (l + 1) := by
      intro L
      induction L with
      | zero => intro h; rw [Nat.pow_zero, Nat.mod_one, Nat.mod_one] at h; exact absurd rfl h
      | succ L ih =>
        intro h
        by_cases he : (r - 1) % 2 ^ L = (r' - 1) % 2 ^ L
        · exact ⟨L, by omega, he, h⟩
        · obtain ⟨l, a, b⟩ := ih he
          exact ⟨l, by omega, b⟩
    refine this c.levels ?_
    rw [Nat.mod_eq_of_lt (by omega), Nat.mod_eq_of_lt (by omega)]
    omega
  obtain ⟨l, hl, he, hd'⟩ := hex
  refine ⟨l % c.ndim, Nat.mod_lt _ hd, ?_⟩
  have hsplit : ∀ q, (q : Nat) % 2 ^ (l + 1) = q % 2 ^ l ∨ q % 2 ^ (l + 1) = q % 2 ^ l + 2 ^ l := by
    intro q
    rw [Nat.pow_succ, Nat.mod_mul]
    rcases Nat.mod_two_eq_zero_or_one (q / 2 ^ l) with h | h
    · left; rw [h]; simp
    · right; rw [h]; simp
  have hmlt : (r - 1) % 2 ^ l < 2 ^ l := Nat.mod_lt _ (pow_pos l)
  -- both parts come from the two halves of one list
  have key : ∀ m, m < 2 ^ l → m + 1 + 2 ^ l ≤ c.n →
      ∀ a ∈ V c items (l + 1) (m + 1), ∀ b ∈ V c items (l + 1) (m + 2 ^ l + 1),
        c.le (l % c.ndim) a b = true := by
    intro m hm hmn a ha b hbb
    have e1 : V c items (l + 1) (m + 1) = (halves c (V c items l (m + 1)) l).1 := by
      simp only [V]; rw [if_pos (by omega), if_pos hmn]
    have e2 : V c items (l + 1) (m + 2 ^ l + 1) = (halves c (V c items l (m + 1)) l).2 := by
      simp only [V]; rw [if_neg (by omega), if_pos (by omega)]
      congr 3; omega
    rw [e1] at ha
    rw [e2] at hbb
    have hne : V c items l (m + 1) ≠ [] := by
      intro h0
      rw [h0] at ha
      have := (halves_length c ([] : List α) l).1
      rw [List.length_nil, Nat.zero_div] at this
      rw [List.length_eq_zero_iff.mp this] at ha
      cases ha
    exact C76_split_separates c _ (htr _) (hto _) _ _ _ l rfl (processData_eq hd hne) a ha b hbb
  have hn : ∀ q, (q - 1) % 2 ^ (l + 1) ≤ q - 1 := fun q => Nat.mod_le _ _
  have hq := hn r
  have hq' := hn r'
  rcases hsplit (r - 1) with hr | hr <;> rcases hsplit (r' - 1) with hr' | hr'
  · exact absurd (by rw [hr, hr', he]) hd'
  · left
    intro a ha b hbb
    have ha' := V_sub c items c.levels (l + 1) r h1 (by omega) a ha
    have hb2 := V_sub c items c.levels (l + 1) r' h1' (by omega) b hbb
    rw [hr] at ha'
    rw [hr', ← he] at hb2
    exact key _ hmlt (by omega) a ha' b hb2
  · right
    intro a ha b hbb
    have ha' := V_sub c items c.levels (l + 1) r h1 (by omega) a ha
    have hb2 := V_sub c items c.levels (l + 1) r' h1' (by omega) b hbb
    rw [hr] at ha'
    rw [hr', ← he] at hb2
    exact key _ hmlt (by omega) b hb2 a ha'
  · exact absurd (by rw [hr, hr', he]) hd'

/-- The comparison of the example is a total preorder. -/
example : (∀ ax x y z, (exCfg 3 2).le ax x y = true → (exCfg 3 2).le ax y z = true →
      (exCfg 3 2).le ax x z = true) ∧ (∀ ax x y, ((exCfg 3 2).le ax x y || (exCfg 3 2).le ax y x) = true) := by
  constructor
  · intro ax x y z h1 h2
    simp only [exCfg, decide_eq_true_eq] at *
    omega
  · intro ax x y
    simp only [exCfg, Bool.or_eq_true, decide_eq_true_eq]
    omega

/-! ### C49: every worker takes part

Full statement: with the number of levels the code computes, for every number of workers and every
list, every item is delivered to exactly one worker (C75), every worker takes part, and gathering
returns everything to the first worker (C75).  "Every worker takes part" holds for at most 16
workers, and for 32 and 64; it fails for 17–20 workers and for every power of two from 128 on,
although powers of two are the documented numbers of workers. -/

/-- With enough levels, and twice as many items as workers, every worker gets an item. -/
theorem C49_all_take_part_partial (c : Cfg α) (items : List α)
    (hL : c.n ≤ 2 ^ c.levels) (hN : 2 * c.n ≤ items.length)
    (s : St α) (h : Reach c items s) (r : Nat) (h1 : 1 ≤ r) (h2 : r ≤ c.n)
    (hpc : s.pc r = 2 * c.levels) : s.data r ≠ [] := by
  rw [scatter_V c items s h r h1 h2 hpc]
  -- the smallest sufficient number of levels
  have : ∀ L, c.n ≤ 2 ^ L → ∃ k d, L = k + d ∧ c.n ≤ 2 ^ k ∧ 2 ^ k ≤ 2 * c.n := by
    intro L
    induction L with
    | zero => intro h; exact ⟨0, 0, rfl, h, by simp; omega⟩
    | succ L ih =>
      intro h
      by_cases h' : c.n ≤ 2 ^ L
      · obtain ⟨k, d, e, a, b⟩ := ih h'
        exact ⟨k, d + 1, by omega, a, b⟩
      · exact ⟨L + 1, 0, rfl, h, by rw [pow_s]; omega⟩
  obtain ⟨k, d, e, hk, hk'⟩ := this c.levels hL
  rw [e, V_stable c items hk d r h1 h2]
  have hl := V_lower c items k r h1 (by omega) h2
  have : 0 < items.length / 2 ^ k := Nat.div_pos (by omega) (pow_pos k)
  exact List.length_pos_iff.mp (by omega)

/-- With `2^k` workers and enough levels the sizes differ by at most one. -/
theorem C49_balanced_partial (c : Cfg α) (items : List α) (k : Nat) (hn : c.n = 2 ^ k)
    (hL : k ≤ c.levels) (s : St α) (h : Reach c items s) (r : Nat) (h1 : 1 ≤ r) (h2 : r ≤ c.n)
    (hpc : s.pc r = 2 * c.levels) :
    items.length / c.n ≤ (s.data r).length ∧
      (s.data r).length ≤ (items.length + c.n - 1) / c.n := by
  rw [scatter_V c items s h r h1 h2 hpc]
  obtain ⟨d, hd⟩ : ∃ d, c.levels = k + d := ⟨c.levels - k, by omega⟩
  rw [hd, V_stable c items (by omega) d r h1 h2, hn]
  exact ⟨V_lower c items k r h1 (by omega) h2, V_upper c items k r h1 (by omega) (by omega)⟩

/-- The number of levels of the code is enough up to sixteen workers. -/
theorem C49_levels_enough_partial (c : Cfg α) (hc : c.levels = numLevels c.n)
    (hn : c.n ≤ 16 ∨ ∃ k, k ≤ 6 ∧ c.n = 2 ^ k) : c.n ≤ 2 ^ c.levels := by
  rcases hn with h | ⟨k, hk, e⟩
  · rw [hc]; exact enough_small h
  · rw [hc, e]; exact Nat.pow_le_pow_right (by decide) (enough_pow hk)

/-- With `2^k` workers, `k ≥ 7`, the last worker never gets an item, whatever the list. -/
theorem C49_violated_power_of_two (c : Cfg α) (items : List α) (k : Nat) (hk : 7 ≤ k)
    (hn : c.n = 2 ^ k) (hc : c.levels = numLevels c.n) (s : St α) (h : Reach c items s)
    (hpc : s.pc c.n = 2 * c.levels) : s.data c.n = [] := by
  have h1 : 1 ≤ c.n := by rw [hn]; exact pow_pos k
  rw [scatter_V c items s h c.n h1 (Nat.le_refl _) hpc]
  refine V_empty c items _ _ ?_
  rw [hc, hn]
  exact Nat.pow_lt_pow_right (by decide) (not_enough_pow hk)

/-- With 17 to 20 workers the last worker never gets an item. -/
theorem C49_violated_17 (c : Cfg α) (items : List α) (h17 : 17 ≤ c.n) (h20 : c.n ≤ 20)
    (hc : c.levels = numLevels c.n) (s : St α) (h : Reach c items s)
    (hpc : s.pc c.n = 2 * c.levels) : s.data c.n = [] := by
  rw [scatter_V c items s h c.n (by omega) (Nat.le_refl _) hpc]
  refine V_empty c items _ _ ?_
  rw [hc]
  exact not_enough_17 h17 h20

/-- The state of the two theorems is reached: with 17 workers and a hundred items, say. -/
example : ∃ (c : Cfg (Nat × Nat × Nat)) (items : List (Nat × Nat × Nat)) (s : St (Nat × Nat × Nat)),
    c.n = 17 ∧ c.levels = numLevels c.n ∧ items.length = 100 ∧ Reach c items s ∧
      s.pc c.n = 2 * c.levels ∧ s.data c.n = [] := by
  let c := exCfg 17 (numLevels 17)
  let items := (List.range 100).map fun i => (i, i, 0)
  obtain ⟨-, -, -, h⟩ := reach_finished c items (by decide) (by decide) (by decide) _ _ Reach.init rfl
  obtain ⟨s, hs, hp⟩ := h (2 * c.levels) c.n (by decide) (Nat.le_refl _) (Nat.zero_le _)
    (by unfold progLen; omega)
  exact ⟨c, items, s, rfl, rfl, by decide, hs, hp,
    C49_violated_17 c items (by decide) (by decide) rfl s hs hp⟩

/-- Three workers and one item: the first worker keeps nothing at the first level and raises
IndexError at the second. -/
theorem C49_violated_few_items : ∃ s, Reach (exCfg 3 2) [(10, 3, 0)] s ∧
    step (exCfg 3 2) s 1 = some .throws := by
  have run : ∀ (c : Cfg (Nat × Nat × Nat)) (items) (s : St (Nat × Nat × Nat)), Reach c items s →
      1 ≤ c.n → (∃ s', step c s 1 = some (.ok s')) →
      ∃ s', Reach c items s' ∧ s'.pc 1 = s.pc 1 + 1 := by
    intro c items s h hn ⟨s', hs'⟩
    exact ⟨s', Reach.step h (Nat.le_refl _) hn hs', by rw [(step_pc hs').2, set_self]⟩
  obtain ⟨s1, r1, p1⟩ := run (exCfg 3 2) [(10, 3, 0)] _ Reach.init (by decide)
    (step_skip (by decide) (by decide))
  have p1 : s1.pc 1 = 1 := p1
  have d1 : s1.data 1 = [(10, 3, 0)] := by
    rw [(inv_reach r1).data 1 (by decide) (by decide), p1]; rfl
  obtain ⟨s2, r2, p2⟩ := run (exCfg 3 2) [(10, 3, 0)] s1 r1 (by decide) (by
    have hc : ∃ s', step (exCfg 3 2) s1 1 = some (.ok s') := by
      unfold step
      simp only
      rw [p1, if_neg (by decide), show instr (exCfg 3 2).n (exCfg 3 2).levels 1 1 = .splitSend 0 2 by decide]
      simp only
      rw [processData_eq (by decide) (by rw [d1]; exact List.cons_ne_nil _ _)]
      exact ⟨_, rfl⟩
    exact hc)
  rw [p1] at p2
  obtain ⟨s3, r3, p3⟩ := run (exCfg 3 2) [(10, 3, 0)] s2 r2 (by decide)
    (step_skip (by rw [p2]; decide) (by rw [p2]; decide))
  rw [p2] at p3
  refine ⟨s3, r3, ?_⟩
  have d3 : s3.data 1 = [] := by
    have e : D (exCfg 3 2) [(10, 3, 0)] 3 1 = (halves (exCfg 3 2) [(10, 3, 0)] 0).1 := rfl
    rw [(inv_reach r3).data 1 (by decide) (by decide), p3]
    show D (exCfg 3 2) [(10, 3, 0)] 3 1 = []
    rw [e]
    exact List.length_eq_zero_iff.mp (by rw [(halves_length _ _ _).1]; decide)
  unfold step
  simp only
  have hin : instr (exCfg 3 2).n (exCfg 3 2).levels 1 (1 + 1 + 1) = .splitSend 1 3 := by decide
  rw [p3, if_neg (by decide), hin, d3]
  simp [processData, exCfg, sortData]

/-- Twice as many items as workers, and enough levels. -/
example : (exCfg 3 2).n ≤ 2 ^ (exCfg 3 2).levels ∧ 2 * (exCfg 2 1).n ≤ exItems.length ∧
    (exCfg 4 2).n = 2 ^ 2 ∧ 2 ≤ (exCfg 4 2).levels := by decide

end Verif.Tree
