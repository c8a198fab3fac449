import Verif.Mpi.Merge
import Verif.Mpi.StatesProps
/-!
# C48: merging returns every worker's state to the right body

Specification: `look`, `SameMotion` (`Verif.Mpi.StatesProps`), `SameOwned`.
-/
namespace Verif.Mpi
open Verif

variable {R E : Type}

/-! ## Specification -/

/-- the same ids belong to `k` in both containers -/
def SameOwned (k : Int) (W B : Bodies R E) : Prop :=
  ∀ i, (∃ b, look W i = some b ∧ b.subdomain = k) ↔ (∃ b, look B i = some b ∧ b.subdomain = k)

/-! ## Lemmas -/

theorem mem_owned {B : Bodies R E} {k i : Int} : i ∈ owned B k ↔ ∃ b, look B i = some b ∧ b.subdomain = k := by
  unfold owned look
  simp only [List.mem_map, List.mem_filter, List.mem_range]
  constructor
  · rintro ⟨j, ⟨h1, h2⟩, rfl⟩
    rw [if_pos (by omega), Int.toNat_natCast]
    rcases hb : B[j]? with _ | _ | b
    · rw [hb] at h2; simp at h2
    · rw [hb] at h2; simp at h2
    · rw [hb] at h2; exact ⟨b, rfl, by simpa using h2⟩
  · rintro ⟨b, h1, h2⟩
    by_cases h0 : 0 ≤ i
    · rw [if_pos h0] at h1
      refine ⟨i.toNat, ⟨?_, ?_⟩, by omega⟩
      · by_contra hc
        rw [List.getElem?_eq_none (by omega)] at h1; simp at h1
      · rcases hb : B[i.toNat]? with _ | _ | b'
        · rw [hb] at h1; simp at h1
        · rw [hb] at h1; simp at h1
        · rw [hb] at h1; simp at h1; subst h1; simpa using h2
    · rw [if_neg h0] at h1; cases h1

theorem owned_sorted (B : Bodies R E) (k : Int) : (owned B k).Pairwise (· < ·) := by
  unfold owned
  rw [List.pairwise_map]
  refine List.Pairwise.imp ?_ (List.Pairwise.filter _ List.pairwise_lt_range)
  intro a b h; exact_mod_cast h

/-- the same ids in the same order -/
theorem owned_eq {k : Int} {W B : Bodies R E} (h : SameOwned k W B) : owned W k = owned B k := by
  refine List.Perm.eq_of_pairwise (le := fun a b => a < b) (fun a b _ _ h1 h2 => by omega) (owned_sorted W k) (owned_sorted B k) ?_
  rw [List.perm_ext_iff_of_nodup]
  · intro i; rw [mem_owned, mem_owned]; exact h i
  · exact (owned_sorted W k).imp fun h => by omega
  · exact (owned_sorted B k).imp fun h => by omega

/-- the bounds sent are those of the owned bodies, in the same order -/
theorem ownedBounds_eq (B : Bodies R E) (k : Int) : ownedBounds B k = (owned B k).map fun i => ((look B i).map (·.bound)).join := by
  unfold owned
  rw [List.map_map]
  have key : ∀ (pre B : Bodies R E), ownedBounds B k = ((List.range' pre.length B.length).filter fun i => match (pre ++ B)[i]? with
      | some (some b) => decide (b.subdomain = k)
      | _ => false).map ((fun i => ((look (pre ++ B) i).map (·.bound)).join) ∘ fun i : Nat => (i : Int)) := by
    intro pre B
    induction B generalizing pre with
    | nil => rfl
    | cons o B ih =>
      have h1 := ih (pre ++ [o])
      rw [List.append_assoc, List.length_append] at h1
      simp only [List.singleton_append, List.length_singleton] at h1
      rw [List.length_cons, List.range'_succ, List.filter_cons]
      have h2 : (pre ++ o :: B)[pre.length]? = some o := by simp
      have hl : look (pre ++ o :: B) (pre.length : Int) = o := by
        unfold look; rw [if_pos (by omega), Int.toNat_natCast, h2]; rfl
      rw [h2]
      unfold ownedBounds at h1 ⊢
      rw [List.filterMap_cons, h1]
      cases o with
      | none => rfl
      | some b =>
        by_cases hb : b.subdomain = k
        · simp only [hb, if_true, decide_true, List.map_cons, Function.comp_apply, hl]; rfl
        · simp only [hb, if_false, decide_false]; rfl
  have := key [] B
  rw [List.range_eq_range']
  exact this

theorem setBounds_spec {ids : List Int} {bd : Int → Option (Bnd R)} : ∀ {B : Bodies R E}, ids.Nodup → (∀ i ∈ ids, ∃ b, look B i = some b) →
    ∃ B', setBounds ids (ids.map bd) B = .ok B' ∧ B'.length = B.length ∧
      ∀ i, look B' i = if i ∈ ids then (look B i).map fun b => { b with bound := bd i } else look B i := by
  induction ids with
  | nil => intro B _ _; exact ⟨B, rfl, rfl, fun i => by simp⟩
  | cons j ids ih =>
    intro B hn h
    obtain ⟨hj, hn⟩ := List.nodup_cons.mp hn
    obtain ⟨b, hb⟩ := h j (by simp)
    obtain ⟨B', h1, h2, h3⟩ := ih (B := store B j { b with bound := bd j }) hn (fun i hi => by
      rw [look_store hb]
      by_cases e : i = j
      · rw [if_pos e]; exact ⟨_, rfl⟩
      · rw [if_neg e]; exact h i (by simp [hi]))
    refine ⟨B', ?_, by rw [h2, length_store], ?_⟩
    · rw [List.map_cons, setBounds, deref_ok.mpr hb]; exact h1
    · intro i
      rw [h3, look_store hb]
      by_cases e : i = j
      · subst e; rw [if_neg hj, if_pos rfl, if_pos (by simp), hb]; rfl
      · rw [if_neg e]; simp [e]

theorem rebound_spec {isGridNode : E → Bool} {ids : List Int} : ∀ {B : Bodies R E}, (∀ i ∈ ids, ∃ b, look B i = some b) →
    ∃ B', rebound isGridNode ids B = .ok B' ∧ B'.length = B.length ∧
      ∀ i, look B' i = if i ∈ ids then (look B i).map fun b => if isGridNode b.rest then b else { b with bounded := true } else look B i := by
  induction ids with
  | nil => intro B _; exact ⟨B, rfl, rfl, fun i => by simp⟩
  | cons j ids ih =>
    intro B h
    obtain ⟨b, hb⟩ := h j (by simp)
    by_cases hg : isGridNode b.rest
    · obtain ⟨B', h1, h2, h3⟩ := ih (B := B) fun i hi => h i (by simp [hi])
      refine ⟨B', ?_, h2, ?_⟩
      · rw [rebound, deref_ok.mpr hb]; simp only [hg, if_true]; exact h1
      · intro i
        rw [h3]
        by_cases e : i = j
        · subst e; simp [hb, hg]
        · simp [e]
    · obtain ⟨B', h1, h2, h3⟩ := ih (B := store B j { b with bounded := true }) (fun i hi => by
        rw [look_store hb]
        by_cases e : i = j
        · rw [if_pos e]; exact ⟨_, rfl⟩
        · rw [if_neg e]; exact h i (by simp [hi]))
      refine ⟨B', ?_, by rw [h2, length_store], ?_⟩
      · rw [rebound, deref_ok.mpr hb]; simp only [hg]; exact h1
      · intro i
        rw [h3, look_store hb]
        by_cases e : i = j
        · subst e; simp [hb, hg]
        · simp [e]

/-- the body `b` of the master after it has got the data of the body `w` of a worker -/
def returned (isGridNode : E → Bool) (w b : Bdy R E) : Bdy R E :=
  let b := { b with st := merge b.st w.st, bound := w.bound }
  if isGridNode b.rest then b else { b with bounded := true }

theorem mergeOne_spec {isGridNode : E → Bool} {k : Int} {W B : Bodies R E} (h : SameOwned k W B) :
    ∃ B', mergeOne isGridNode k W B = .ok B' ∧ B'.length = B.length ∧
      ∀ i, look B' i = if i ∈ owned B k then ((look W i).bind fun w => (look B i).map (returned isGridNode w)) else look B i := by
  have ho := owned_eq h
  have hW : ∀ i ∈ owned B k, ∃ b, look W i = some b := fun i hi => by
    rw [← ho] at hi; obtain ⟨b, hb, -⟩ := mem_owned.mp hi; exact ⟨b, hb⟩
  have hB : ∀ i ∈ owned B k, ∃ b, look B i = some b := fun i hi => by
    obtain ⟨b, hb, -⟩ := mem_owned.mp hi; exact ⟨b, hb⟩
  obtain ⟨vals, hv, hl⟩ := getStates_ok hW
  obtain ⟨B1, k1, k2, k3⟩ := setLoop_enc (pre := []) (post := []) (k := 0) hv rfl hB
  rw [List.append_nil] at k1
  obtain ⟨B2, m1, m2, m3⟩ := setBounds_spec (ids := owned B k) (bd := fun i => ((look W i).map (·.bound)).join) (B := B1)
    ((owned_sorted B k).imp fun h => by omega) (fun i hi => by
      obtain ⟨b, hb⟩ := hB i hi
      rw [k3, if_pos hi, hb]; exact ⟨_, rfl⟩)
  obtain ⟨B3, n1, n2, n3⟩ := rebound_spec (isGridNode := isGridNode) (ids := owned B k) (B := B2) (fun i hi => by
      obtain ⟨b, hb⟩ := hB i hi
      rw [m3, if_pos hi, k3, if_pos hi, hb]; exact ⟨_, rfl⟩)
  refine ⟨B3, ?_, by rw [n2, m2, k2], ?_⟩
  · unfold mergeOne
    rw [ho, hv]
    simp only [Res.bind_ok]
    rw [setStates]
    simp only [List.nil_append] at k1
    rw [k1]
    simp only [Res.bind_ok]
    rw [ownedBounds_eq, ho, m1]
    simp only [Res.bind_ok]
    exact n1
  · intro i
    rw [n3, m3, k3]
    by_cases hi : i ∈ owned B k
    · obtain ⟨b, hb⟩ := hB i hi
      obtain ⟨w, hw⟩ := hW i hi
      simp only [if_pos hi, hb, hw, Option.map_some, Option.bind_some, sentFor, returned]
      rfl
    · simp only [if_neg hi]

theorem returned_subdomain (isGridNode : E → Bool) (w b : Bdy R E) : (returned isGridNode w b).subdomain = b.subdomain := by
  unfold returned; dsimp only; split_ifs <;> rfl

theorem owned_merged {isGridNode : E → Bool} {k : Int} {W B B' : Bodies R E} (h : SameOwned k W B)
    (hB' : ∀ i, look B' i = if i ∈ owned B k then ((look W i).bind fun w => (look B i).map (returned isGridNode w)) else look B i) (k' i : Int) :
    (∃ b, look B' i = some b ∧ b.subdomain = k') ↔ ∃ b, look B i = some b ∧ b.subdomain = k' := by
  rw [hB']
  by_cases hi : i ∈ owned B k
  · rw [if_pos hi]
    obtain ⟨b, hb, -⟩ := mem_owned.mp hi
    obtain ⟨w, hw, -⟩ := (h i).mpr (mem_owned.mp hi)
    rw [hb, hw]
    simp only [Option.bind_some, Option.map_some, Option.some.injEq]
    constructor
    · rintro ⟨x, rfl, hx⟩; exact ⟨b, rfl, by rw [← hx, returned_subdomain]⟩
    · rintro ⟨x, rfl, hx⟩; exact ⟨_, rfl, by rw [returned_subdomain, hx]⟩
  · rw [if_neg hi]

theorem mergeLoop_spec {isGridNode : E → Bool} {W : Nat → Bodies R E} {ks : List Nat} : ∀ {B : Bodies R E}, ks.Nodup →
    (∀ k ∈ ks, SameOwned k (W k) B) → ∃ B', mergeLoop isGridNode W ks B = .ok B' ∧ B'.length = B.length ∧
      (∀ i, (∀ k ∈ ks, i ∉ owned B k) → look B' i = look B i) ∧
      ∀ k ∈ ks, ∀ i ∈ owned B k, look B' i = (look (W k) i).bind fun w => (look B i).map (returned isGridNode w) := by
  induction ks with
  | nil => intro B _ _; exact ⟨B, rfl, rfl, fun _ _ => rfl, fun k hk => by cases hk⟩
  | cons k ks ih =>
    intro B hn h
    obtain ⟨hk, hn⟩ := List.nodup_cons.mp hn
    obtain ⟨B1, h1, h2, h3⟩ := mergeOne_spec (isGridNode := isGridNode) (h k (by simp))
    have hown := fun k' i => owned_merged (h k (by simp)) h3 k' i
    have hmem : ∀ (k' : Int) i, i ∈ owned B1 k' ↔ i ∈ owned B k' := fun k' i => by rw [mem_owned, mem_owned]; exact hown k' i
    obtain ⟨B', g1, g2, g3, g4⟩ := ih (B := B1) hn (fun k' hk' i => by
      rw [hown]; exact h k' (by simp [hk']) i)
    have hdis : ∀ (a b : Nat) i, i ∈ owned B a → i ∈ owned B b → a = b := by
      intro a b i ha hb
      obtain ⟨x, hx, e1⟩ := mem_owned.mp ha
      obtain ⟨y, hy, e2⟩ := mem_owned.mp hb
      rw [hx] at hy; injection hy with hy; subst hy; rw [e1] at e2; exact_mod_cast e2
    refine ⟨B', ?_, by rw [g2, h2], ?_, ?_⟩
    · rw [mergeLoop, h1]; exact g1
    · intro i hi
      rw [g3 i (fun k' hk' hm => hi k' (by simp [hk']) ((hmem k' i).mp hm)), h3, if_neg (hi k (by simp))]
    · intro k' hk' i hi
      rcases List.mem_cons.mp hk' with e | hk'
      · subst e
        rw [g3 i (fun k'' hk'' hm => hk (hdis k' k'' i hi ((hmem k'' i).mp hm) ▸ hk'')), h3, if_pos hi]
      · have hne : i ∉ owned B k := fun hm => hk (hdis k' k i hi hm ▸ hk')
        rw [g4 k' hk' i ((hmem k' i).mpr hi), h3, if_neg hne]

/-! ## C48 -/

/-- **C48, partial.** For every number of processes, every assignment of bodies to workers and every state of the workers in which worker
`k` holds exactly the bodies the master has assigned to it: merging succeeds; every body of a worker gets on the master the position,
velocity, angular velocity, orientation and bound it has on its worker; the bodies of the master and of no process are unchanged, and
nothing appears or vanishes.  Missing: the angular momentum (`C48_violated_angMom`), the `bounded` flag (`C48_violated_bounded`), bodies
erased on a worker (`C48_violated_erased`). -/
theorem C48_merge_partial (isGridNode : E → Bool) (n : Nat) (W : Nat → Bodies R E) (B : Bodies R E)
    (h : ∀ k : Nat, 0 < k → k < n → SameOwned k (W k) B) :
    ∃ B', mergeScene isGridNode n W B = .ok B' ∧ B'.length = B.length ∧
      (∀ i, (∀ (k : Nat) b, 0 < k → k < n → look B i = some b → b.subdomain ≠ k) → look B' i = look B i) ∧
      ∀ (k : Nat) i b, 0 < k → k < n → look B i = some b → b.subdomain = k → ∃ w b', look (W k) i = some w ∧ look B' i = some b' ∧
        SameMotion b'.st w.st ∧ b'.bound = w.bound ∧ b'.subdomain = b.subdomain ∧ b'.isSubdomain = b.isSubdomain ∧ b'.rest = b.rest := by
  have hks : ∀ k, k ∈ (List.range n).drop 1 ↔ 0 < k ∧ k < n := by
    intro k
    rw [List.drop_one, List.tail_range]
    cases n with
    | zero => simp
    | succ n => rw [List.mem_range'_1]; omega
  obtain ⟨B', h1, h2, h3, h4⟩ := mergeLoop_spec (isGridNode := isGridNode) (W := W) (ks := (List.range n).drop 1) (B := B)
    (List.nodup_range.sublist (List.drop_sublist _ _)) (fun k hk => h k ((hks k).mp hk).1 ((hks k).mp hk).2)
  refine ⟨B', h1, h2, fun i hi => h3 i fun k hk hm => ?_, fun k i b hk0 hkn hb hs => ?_⟩
  · obtain ⟨b, hb, hs⟩ := mem_owned.mp hm
    exact hi k b ((hks k).mp hk).1 ((hks k).mp hk).2 hb hs
  · have hm : i ∈ owned B k := mem_owned.mpr ⟨b, hb, hs⟩
    obtain ⟨w, hw, -⟩ := (h k hk0 hkn i).mpr ⟨b, hb, hs⟩
    refine ⟨w, returned isGridNode w b, hw, ?_, ?_⟩
    · rw [h4 k ((hks k).mpr ⟨hk0, hkn⟩) i hm, hw, hb]; rfl
    · unfold returned; dsimp only
      split_ifs <;> exact ⟨⟨rfl, rfl, rfl, rfl⟩, rfl, rfl, rfl, rfl⟩

/-- **C48 is false for the angular momentum**: whatever the workers have, every body keeps on the master the angular momentum it had there
before; the orientation of aspherical bodies is integrated from it (C80). -/
theorem C48_violated_angMom (isGridNode : E → Bool) (n : Nat) (W : Nat → Bodies R E) (B B' : Bodies R E)
    (h : ∀ k : Nat, 0 < k → k < n → SameOwned k (W k) B) (hB' : mergeScene isGridNode n W B = .ok B') (i : Int) :
    (look B' i).map (·.st.angMom) = (look B i).map (·.st.angMom) := by
  obtain ⟨B1, h1, h2, h3, h4⟩ := mergeLoop_spec (isGridNode := isGridNode) (W := W) (ks := (List.range n).drop 1) (B := B)
    (List.nodup_range.sublist (List.drop_sublist _ _)) (fun k hk => by
      rw [List.drop_one, List.tail_range] at hk
      cases n with
      | zero => simp at hk
      | succ n => rw [List.mem_range'_1] at hk; exact h k (by omega) (by omega))
  have : B1 = B' := by
    unfold mergeScene at hB'; rw [h1] at hB'; injection hB'
  subst this
  by_cases hex : ∃ k ∈ (List.range n).drop 1, i ∈ owned B k
  · obtain ⟨k, hk, hi⟩ := hex
    rw [h4 k hk i hi]
    rw [List.drop_one, List.tail_range] at hk
    have hk' : 0 < k ∧ k < n := by
      cases n with
      | zero => simp at hk
      | succ n => rw [List.mem_range'_1] at hk; omega
    obtain ⟨b, hb, hs⟩ := mem_owned.mp hi
    obtain ⟨w, hw, -⟩ := (h k hk'.1 hk'.2 i).mpr ⟨b, hb, hs⟩
    rw [hw, hb]
    simp only [Option.bind_some, Option.map_some, Option.some.injEq]
    unfold returned; dsimp only; split_ifs <;> rfl
  · rw [h3 i (fun k hk hi => hex ⟨k, hk, hi⟩)]

/-- **C48 is false for the `bounded` flag**: a body of a worker that is not bounded there (and not a grid node) is bounded on the master after merging. -/
theorem C48_violated_bounded (isGridNode : E → Bool) (k : Nat) (W B B' : Bodies R E) (h : SameOwned k W B)
    (hB' : mergeOne isGridNode k W B = .ok B') {i : Int} {b : Bdy R E} (hb : look B i = some b) (hs : b.subdomain = k) (hg : isGridNode b.rest = false) :
    (look B' i).map (·.bounded) = some true := by
  obtain ⟨B1, h1, -, h3⟩ := mergeOne_spec (isGridNode := isGridNode) h
  rw [hB'] at h1; injection h1 with h1; subst h1
  obtain ⟨w, hw, -⟩ := (h i).mpr ⟨b, hb, hs⟩
  rw [h3, if_pos (mem_owned.mpr ⟨b, hb, hs⟩), hw, hb]
  simp [returned, hg]

/-- **C48 is false for bodies erased on a worker**: if a worker holds fewer bodies than the master has assigned to it, merging reads beyond
the end of the message. -/
theorem C48_violated_erased (isGridNode : E → Bool) (k : Int) (W B : Bodies R E) (h : (owned W k).length < (owned B k).length) :
    mergeOne isGridNode k W B = .ub := by
  have hW : ∀ i ∈ owned W k, ∃ b, look W i = some b := fun i hi => by
    obtain ⟨b, hb, -⟩ := mem_owned.mp hi; exact ⟨b, hb⟩
  obtain ⟨vals, hv, hl⟩ := getStates_ok hW
  unfold mergeOne
  rw [hv]
  simp only [Res.bind_ok]
  rw [C42_violated_short B (owned B k) (fun i hi => by obtain ⟨b, hb, -⟩ := mem_owned.mp hi; exact ⟨b, hb⟩) vals (by omega)]
  rfl

/-! ## Hypotheses can be met -/

/-- master and two workers for the examples: bodies 0 and 3 of worker 1, 2 of worker 2, 4 of the master, 1 erased; worker 2 has dropped
the bodies of the others -/
def exMaster : Bodies Nat Unit :=
  [some (exBody 0), none, some { exBody 10 with subdomain := 2 }, some (exBody 20), some { exBody 30 with subdomain := 0 }]
/-- the workers of the example -/
def exWorkers (k : Nat) : Bodies Nat Unit :=
  if k = 1 then [some { exBody 100 with st := { (exBody 100).st with angMom := ![1, 2, 3] }, bounded := false }, none, some { exBody 10 with subdomain := 2 }, some (exBody 120), none]
  else [none, none, some { exBody 110 with subdomain := 2 }, none, none]

theorem exSame (k : Nat) (h : 0 < k) (h' : k < 3) : SameOwned k (exWorkers k) exMaster := by
  have key : ∀ B : Bodies Nat Unit, ∀ l, owned B k = l → ∀ i, (∃ b, look B i = some b ∧ b.subdomain = k) ↔ i ∈ l := by
    rintro B l rfl i; exact mem_owned.symm
  intro i
  have : k = 1 ∨ k = 2 := by omega
  rcases this with rfl | rfl
  · rw [key (exWorkers 1) [0, 3] rfl, key exMaster [0, 3] rfl]
  · rw [key (exWorkers 2) [2] rfl, key exMaster [2] rfl]

/-- `C48_merge_partial`, `C48_violated_angMom`, `C48_violated_bounded`: positions of bodies 3, 2, 4, angular momentum and flag of body 0 on
the master after merging and on worker 1 -/
example : ∃ B', mergeScene (fun _ => false) 3 exWorkers exMaster = .ok B' ∧
    [3, 2, 4].map (fun i => (look B' i).map (·.st.pos 0)) = [some 120, some 110, some 30] ∧
    (look B' 0).map (fun b => (b.st.angMom 0, b.bounded)) = some (0, true) ∧ (look (exWorkers 1) 0).map (fun b => (b.st.angMom 0, b.bounded)) = some (1, false) := by
  obtain ⟨B', h1, -⟩ := C48_merge_partial (fun _ => false) 3 exWorkers exMaster exSame
  have h : (match mergeScene (fun _ => false) 3 exWorkers exMaster with
      | .ok B' => some ([3, 2, 4].map (fun i => (look B' i).map (·.st.pos 0)), (look B' 0).map (fun b => (b.st.angMom 0, b.bounded)))
      | _ => none) = some ([some 120, some 110, some 30], some (0, true)) := rfl
  rw [h1] at h
  injection h with h; injection h with h2 h3
  exact ⟨B', h1, h2, h3, rfl⟩

/-- `C48_violated_erased`: worker 1 has lost body 3 -/
example : mergeOne (fun _ => false) 1 [some (exBody 100), none, none, none, none] exMaster = .ub :=
  C48_violated_erased _ _ _ _ (by decide)

end Verif.Mpi
