import Verif.Text.Attrs

/-! # What text files keep of clumps, and files for LIGGGHTS (C272, C273) -/
namespace Verif.Text

/-! ## Specification -/

open Classical in
/-- Members of a clump which exist and are spheres of the group. -/
noncomputable def group (find : ℤ → Option Body) (mask : ℤ) (c : Body) : List Body := ((c.members.getD []).filterMap find).filter fun b => decide (Wanted "x_y_z_r" mask b)

/-- Clumps. -/
def clumpsOf (bs : List Body) : List Body := bs.filter fun b => b.members.isSome

/-- `s` is the sphere `b` rotated, scaled and moved, but for the sixth digit. -/
def ReadsRot (shift : V3) (rot : V3 → V3) (scale : ℝ) (b : Body) (s : Sph) : Prop :=
  ∃ p : V3, (∀ i, |p i - b.pos i| ≤ 5e-6 * |b.pos i|) ∧ s.pos = shift + scale • rot p ∧ ∀ r, b.rad = some r → |s.rad - scale * r| ≤ 5e-6 * |scale * r|

/-! ## Helpers -/

/-- A sphere read. -/
noncomputable def sixR (P : Py) (shift : V3) (rot : V3 → V3) (scale : ℝ) (b : Body) : Sph := place shift scale (rot ![P.g6 (b.pos 0), P.g6 (b.pos 1), P.g6 (b.pos 2)]) (P.g6 (b.rad.getD 0)) (-1)

theorem sixR_reads (P : Py) (shift : V3) (rot : V3 → V3) (scale : ℝ) (b : Body) : ReadsRot shift rot scale b (sixR P shift rot scale b) := by
  refine ⟨![P.g6 (b.pos 0), P.g6 (b.pos 1), P.g6 (b.pos 2)], ?_, rfl, ?_⟩
  · intro i
    fin_cases i
    · exact g6_close P (b.pos 0)
    · exact g6_close P (b.pos 1)
    · exact g6_close P (b.pos 2)
  · exact (six_reads P shift scale b (-1)).rad

theorem clumpLines_eq (find : ℤ → Option Body) (mask : ℤ) (c : Body) : clumpLines find mask c.id (c.members.getD []) = (group find mask c).map fun b => xyzr b ++ [.g c.id] := by
  unfold clumpLines group
  rw [← filter_chosen]
  induction c.members.getD [] with
  | nil => rfl
  | cons i ms ih =>
    rcases hf : find i with _ | b
    · simp [List.filterMap_cons, hf, ih]
    · by_cases hc : chosen mask b = true
      · simp [List.filterMap_cons, hf, ih, hc]
      · simp [List.filterMap_cons, hf, ih, hc]

theorem clumpAll_eq (find : ℤ → Option Body) (mask : ℤ) (bs : List Body) :
    clumpAll find mask bs = ((clumpsOf bs).flatMap fun c => (group find mask c).map fun b => xyzr b ++ [.g c.id], (clumpsOf bs).length) := by
  induction bs with
  | nil => rfl
  | cons b bs ih =>
    unfold clumpAll
    rcases hm : b.members with _ | ms
    · simp [ih, clumpsOf, hm]
    · have := clumpLines_eq find mask b
      simp only [hm, Option.getD_some] at this
      simp [ih, clumpsOf, hm, this]

theorem clumpLine_row (P : Py) (shift : V3) (rot : V3 → V3) (scale : ℝ) (s : Cl) (b : Body) {i : ℤ} (hi : |i| < 10 ^ 6) :
    P.clumpLine shift rot scale s (xyzr b ++ [.g i]) =
      if s.id < 0 ∨ s.id = i then .ok { s with cur := s.cur ++ [sixR P shift rot scale b], id := i } else .ok { ret := s.ret ++ [s.cur], cur := [sixR P shift rot scale b], id := i } := by
  have e4 : ((xyzr b ++ [.g (i : ℝ)])[4]?).bind P.int = some i := by
    have : (xyzr b ++ [.g (i : ℝ)])[4]? = some (.g (i : ℝ)) := rfl
    rw [this, Option.bind_some, int_small P hi]
  unfold Py.clumpLine
  rw [if_neg (by simp), if_neg (by simp [xyzr, Tok.hash]), four_xyzr, e4]
  rfl

theorem clump_same (P : Py) (shift : V3) (rot : V3 → V3) (scale : ℝ) {i : ℤ} (hi : |i| < 10 ^ 6) (g : List Body) : ∀ ret cur,
    P.clumpLinesIn shift rot scale (g.map fun b => xyzr b ++ [.g i]) ⟨ret, cur, i⟩ = .ok ⟨ret, cur ++ g.map (sixR P shift rot scale), i⟩ := by
  induction g with
  | nil => intro ret cur; simp [Py.clumpLinesIn]
  | cons b g ih =>
    intro ret cur
    rw [List.map_cons, Py.clumpLinesIn, clumpLine_row P shift rot scale _ b hi, if_pos (.inr rfl), Res.bind_ok, ih]
    simp

theorem clumpIn_append (P : Py) (shift : V3) (rot : V3 → V3) (scale : ℝ) (l1 l2 : List (List Tok)) (s : Cl) :
    P.clumpLinesIn shift rot scale (l1 ++ l2) s = (P.clumpLinesIn shift rot scale l1 s).bind (P.clumpLinesIn shift rot scale l2) := by
  induction l1 generalizing s with
  | nil => simp [Py.clumpLinesIn]
  | cons l ls ih =>
    simp only [List.cons_append, Py.clumpLinesIn]
    rcases P.clumpLine shift rot scale s l with x | _ | _
    · simp only [Res.bind_ok, ih]
    · simp
    · simp

/-- Clumps when the file ends. -/
def Cl.all (s : Cl) : List (List Sph) := if s.cur = [] then s.ret else s.ret ++ [s.cur]

theorem clumps_in (P : Py) (shift : V3) (rot : V3 → V3) (scale : ℝ) (G : Body → List Body) (cs : List Body) : ∀ s : Cl,
    ((s.id < 0 ∧ s.cur = []) ∨ (s.cur ≠ [] ∧ 0 ≤ s.id ∧ ∀ c ∈ cs, c.id ≠ s.id)) → (∀ c ∈ cs, 0 ≤ c.id ∧ c.id < 10 ^ 6) → (cs.map Body.id).Nodup →
    ∃ s', P.clumpLinesIn shift rot scale (cs.flatMap fun c => (G c).map fun b => xyzr b ++ [.g c.id]) s = .ok s' ∧
      s'.all = s.all ++ ((cs.map G).filter fun g => !g.isEmpty).map fun g => g.map (sixR P shift rot scale) := by
  induction cs with
  | nil => intro s _ _ _; exact ⟨s, rfl, by simp⟩
  | cons c cs ih =>
    intro s hs hid hn
    have hid' : ∀ x ∈ cs, 0 ≤ x.id ∧ x.id < 10 ^ 6 := fun x hx => hid x (by simp [hx])
    have hn' : (cs.map Body.id).Nodup := (List.nodup_cons.1 hn).2
    have hnot : ∀ x ∈ cs, x.id ≠ c.id := by
      intro x hx e
      exact (List.nodup_cons.1 hn).1 (e ▸ List.mem_map_of_mem hx)
    have hc := hid c (by simp)
    have hi : |c.id| < 10 ^ 6 := by rw [abs_of_nonneg hc.1]; exact hc.2
    rw [List.flatMap_cons, clumpIn_append]
    rcases hg : G c with _ | ⟨b, g⟩
    · have hs' : (s.id < 0 ∧ s.cur = []) ∨ (s.cur ≠ [] ∧ 0 ≤ s.id ∧ ∀ x ∈ cs, x.id ≠ s.id) := hs.imp id fun h => ⟨h.1, h.2.1, fun x hx => h.2.2 x (by simp [hx])⟩
      obtain ⟨s', h1, h2⟩ := ih s hs' hid' hn'
      exact ⟨s', by simpa [Py.clumpLinesIn] using h1, by rw [h2]; simp [hg]⟩
    · rw [List.map_cons, Py.clumpLinesIn, clumpLine_row P shift rot scale s b hi]
      rcases hs with ⟨h1, h2⟩ | ⟨h1, h2, h3⟩
      · rw [if_pos (.inl h1), Res.bind_ok, clump_same P shift rot scale hi, Res.bind_ok]
        obtain ⟨s', e1, e2⟩ := ih ⟨s.ret, s.cur ++ [sixR P shift rot scale b] ++ g.map (sixR P shift rot scale), c.id⟩ (.inr ⟨by simp, hc.1, hnot⟩) hid' hn'
        exact ⟨s', e1, by rw [e2]; simp [Cl.all, h2, hg]⟩
      · rw [if_neg (by rintro (h | h); · omega
                       · exact h3 c (by simp) h.symm), Res.bind_ok, clump_same P shift rot scale hi, Res.bind_ok]
        obtain ⟨s', e1, e2⟩ := ih ⟨s.ret ++ [s.cur], [sixR P shift rot scale b] ++ g.map (sixR P shift rot scale), c.id⟩ (.inr ⟨by simp, hc.1, hnot⟩) hid' hn'
        exact ⟨s', e1, by rw [e2]; simp [Cl.all, h1, hg]⟩

theorem clump_header {comment : List (List String)} (hc : Commented comment) :
    ∀ l ∈ (header "x_y_z_r_clumpId" comment).lines, ∃ s ts, l = .word s :: ts ∧ s.toList.head? = some '#' := by
  unfold header
  by_cases h : comment = []
  · simp only [h, if_true]
    intro l hl
    rw [List.mem_singleton] at hl
    exact ⟨"#format", _, hl, by decide⟩
  · rw [if_neg h, if_neg (by decide)]
    intro l hl
    simp only [List.mem_append, List.mem_cons, List.not_mem_nil, or_false] at hl
    rcases hl with rfl | rfl | hl
    · exact ⟨"#format", _, rfl, by decide⟩
    · exact ⟨"#", _, rfl, by decide⟩
    · obtain ⟨x, hx, rfl⟩ := List.mem_map.1 hl
      obtain ⟨s, ts, rfl, h1, h2⟩ := hc x hx
      exact ⟨s, words ts, rfl, h1⟩

theorem clumpIn_skip (P : Py) (shift : V3) (rot : V3 → V3) (scale : ℝ) {ls : List (List Tok)} (h : ∀ l ∈ ls, ∃ s ts, l = .word s :: ts ∧ s.toList.head? = some '#') (s : Cl) :
    P.clumpLinesIn shift rot scale ls s = .ok s := by
  induction ls with
  | nil => rfl
  | cons l ls ih =>
    obtain ⟨w, ts, rfl, h1⟩ := h l (by simp)
    rw [Py.clumpLinesIn]
    have : P.clumpLine shift rot scale s (.word w :: ts) = .ok s := by simp [Py.clumpLine, Tok.hash, h1]
    rw [this, Res.bind_ok]
    exact ih fun x hx => h x (by simp [hx])

/-! ## C272 -/

/-- **C272, part**: if ids of clumps are distinct and below a million, and further lines of the comment are marked by `#`, the numbers returned are those of clumps and of their spheres
of the group, and import gives the spheres of each clump that has some, clump by clump, rotated, scaled and moved.  Missing: ids from a million on; clumps of which no
sphere is in the group are counted, but are not in the file. -/
theorem C272_clumps_partial (P : Py) (find : ℤ → Option Body) {comment : List (List String)} (hc : Commented comment) (mask : ℤ) {bs : List Body}
    (hid : ∀ c ∈ clumpsOf bs, 0 ≤ c.id ∧ c.id < 10 ^ 6) (hn : ((clumpsOf bs).map Body.id).Nodup) (shift : V3) (rot : V3 → V3) (scale : ℝ) :
    (textClumps find comment mask bs).2 = ((clumpsOf bs).length, ((clumpsOf bs).flatMap (group find mask)).length) ∧
    ∃ ret, P.clumps shift rot scale (textClumps find comment mask bs).1 = .ok ret ∧
      List.Forall₂ (List.Forall₂ (ReadsRot shift rot scale)) (((clumpsOf bs).map (group find mask)).filter fun g => !g.isEmpty) ret := by
  constructor
  · simp [textClumps, clumpAll_eq, List.length_flatMap]
  · obtain ⟨s', h1, h2⟩ := clumps_in P shift rot scale (group find mask) (clumpsOf bs) ⟨[], [], -1⟩ (.inl ⟨by norm_num, rfl⟩) hid hn
    refine ⟨(((clumpsOf bs).map (group find mask)).filter fun g => !g.isEmpty).map fun g => g.map (sixR P shift rot scale), ?_, ?_⟩
    · unfold Py.clumps textClumps
      simp only [clumpAll_eq]
      rw [clumpIn_append, clumpIn_skip P shift rot scale (clump_header hc), Res.bind_ok, h1, Res.bind_ok]
      unfold Cl.all at h2
      rw [h2]
      simp
    · exact forall₂_map_self fun g _ => forall₂_map_self fun b _ => sixR_reads P shift rot scale b

/-- A clump of one sphere, which is body 1. -/
def clumpB (i : ℤ) : Body where
  id := i
  rad := none
  mask := 1
  pos := 0
  vel := 0
  angVel := 0
  mat := none
  dens := 0
  members := some [1]

/-- Only body 1 exists. -/
noncomputable def findB (i : ℤ) : Option Body := if i = 1 then some (ball 2 none) else none

theorem ball_wanted : Wanted "x_y_z_r" (-1) (ball 2 none) := ⟨⟨1, rfl⟩, .inl (by norm_num), by rintro (h | h) <;> simp at h⟩

theorem group_clumpB (i : ℤ) : group findB (-1) (clumpB i) = [ball 2 none] := by simp [group, clumpB, findB, ball_wanted]

example : ((clumpsOf [clumpB 5, ball 2 none, clumpB 7]).map (group findB (-1))) = [[ball 2 none], [ball 2 none]] ∧ (clumpsOf [clumpB 5, ball 2 none, clumpB 7]).map Body.id = [5, 7] := by
  refine ⟨?_, rfl⟩
  have : clumpsOf [clumpB 5, ball 2 none, clumpB 7] = [clumpB 5, clumpB 7] := rfl
  simp [this, group_clumpB]

/-- **C272 violated**: a clump of id a million or more is written with `%g`, with an exponent, and import is an exception. -/
theorem C272_violated_million (P : Py) {i : ℤ} (hi : 10 ^ 6 ≤ i) (shift : V3) (rot : V3 → V3) (scale : ℝ) :
    (textClumps findB [] (-1) [clumpB i]).2 = (1, 1) ∧ P.clumps shift rot scale (textClumps findB [] (-1) [clumpB i]).1 = .throws := by
  have hc : clumpsOf [clumpB i] = [clumpB i] := rfl
  have e4 : ((xyzr (ball 2 none) ++ [.g (i : ℝ)])[4]?).bind P.int = none := by
    have : (xyzr (ball 2 none) ++ [.g (i : ℝ)])[4]? = some (.g (i : ℝ)) := rfl
    rw [this, Option.bind_some, int_big P hi]
  constructor
  · simp [textClumps, clumpAll_eq, hc, group_clumpB]
  · unfold Py.clumps textClumps
    simp only [clumpAll_eq, hc, List.flatMap_cons, List.flatMap_nil, List.append_nil, group_clumpB, List.map_cons, List.map_nil]
    rw [clumpIn_append, clumpIn_skip P shift rot scale (clump_header (comment := []) (by simp [Commented])), Res.bind_ok, Py.clumpLinesIn]
    have : ∀ s, P.clumpLine shift rot scale s (xyzr (ball 2 none) ++ [.g ((clumpB i).id : ℝ)]) = .throws := by
      intro s
      unfold Py.clumpLine
      rw [if_neg (by simp), if_neg (by simp [xyzr, Tok.hash]), show ((clumpB i).id : ℝ) = i from rfl, four_xyzr, e4]
    rw [this]
    simp

/-- **C272 violated**: the number of clumps returned is one although no clump is written, if the mask chooses no member. -/
theorem C272_violated_count (P : Py) (shift : V3) (rot : V3 → V3) (scale : ℝ) :
    (textClumps findB [] 2 [clumpB 5]).2 = (1, 0) ∧ P.clumps shift rot scale (textClumps findB [] 2 [clumpB 5]).1 = .ok [] := by
  have hc : clumpsOf [clumpB 5] = [clumpB 5] := rfl
  have hl : Int.land 2 1 = 0 := by decide
  have hg : group findB 2 (clumpB 5) = [] := by simp [group, clumpB, findB, Wanted, ball, hl]
  constructor
  · simp [textClumps, clumpAll_eq, hc, hg]
  · unfold Py.clumps textClumps
    simp only [clumpAll_eq, hc, List.flatMap_cons, List.flatMap_nil, List.append_nil, hg, List.map_nil]
    rw [clumpIn_skip P shift rot scale (clump_header (comment := []) (by simp [Commented]))]
    simp

/-! ## C273 -/

/-- Spheres of the group with a material. -/
def ligBody (mask : ℤ) (b : Body) : Bool := chosen mask b && b.mat.isSome

/-- The box holds a sphere, but for the upper end of the third axis. -/
structure InBox (s : Lig) (b : Body) : Prop where
  lo : ∀ i r, b.rad = some r → s.lo i ≤ b.pos i - r
  hi : ∀ i r, i ≠ 2 → b.rad = some r → b.pos i + r ≤ s.hi i

/-- What holds after bodies `done`. -/
structure LigInv (s : Lig) (done : List Body) : Prop where
  count : s.count = done.length
  box : ∀ b ∈ done, InBox s b
  masks : ∀ m, m ∈ s.masks ↔ ∃ b ∈ done, b.mask = m
  nodup : s.masks.Nodup
  atoms : List.Forall₂ (fun b l => ∃ n : ℕ, l = [.g n, .g b.mask, .g (b.rad.getD 0), .g b.dens, .g (b.pos 0), .g (b.pos 1), .g (b.pos 2)]) done s.atoms
  numbers : s.atoms.map (fun l => l.head?) = (List.range done.length).map fun k => some (.g ((k + 1 : ℕ) : ℝ))
  speeds : List.Forall₂ (fun b l => ∃ n : ℕ, l = [.g n, .g (b.vel 0), .g (b.vel 1), .g (b.vel 2), .g (b.angVel 0), .g (b.angVel 1), .g (b.angVel 2)]) done s.vels
  vels : s.vels.map (fun l => l.head?) = (List.range done.length).map fun k => some (.g ((k + 1 : ℕ) : ℝ))

theorem LigInv.add {s : Lig} {done : List Body} (h : LigInv s done) {b : Body} (hr : b.rad.isSome) (hm : b.mat.isSome) : LigInv (s.add b) (done ++ [b]) := by
  obtain ⟨r, hr⟩ := Option.isSome_iff_exists.1 hr
  obtain ⟨m, hm⟩ := Option.isSome_iff_exists.1 hm
  have hc : (s.add b).count = s.count + 1 := by simp [Lig.add, hm]
  have hlo : (s.add b).lo = (s.box b).1 := by simp [Lig.add, hm]
  have hhi : (s.add b).hi = (s.box b).2 := by simp [Lig.add, hm]
  have hmk : (s.add b).masks = if b.mask ∈ s.masks then s.masks else s.masks ++ [b.mask] := by simp [Lig.add, hm]
  have hat : (s.add b).atoms = s.atoms ++ [[.g (s.count + 1 : ℕ), .g b.mask, .g (b.rad.getD 0), .g b.dens, .g (b.pos 0), .g (b.pos 1), .g (b.pos 2)]] := by simp [Lig.add, hm]
  have hve : (s.add b).vels = s.vels ++ [[.g (s.count + 1 : ℕ), .g (b.vel 0), .g (b.vel 1), .g (b.vel 2), .g (b.angVel 0), .g (b.angVel 1), .g (b.angVel 2)]] := by simp [Lig.add, hm]
  refine ⟨by rw [hc, h.count]; simp, ?_, ?_, ?_, ?_, ?_, ?_, ?_⟩
  · intro c hcm
    by_cases h0 : s.count = 0
    · have hd : done = [] := by
        have := h.count; rw [h0] at this; exact List.length_eq_zero_iff.1 this.symm
      subst hd
      simp at hcm
      subst hcm
      constructor
      · intro i q hq; rw [hlo]; simp only [Lig.box, h0, if_true, hq, Option.getD_some]; exact le_refl _
      · intro i q _ hq; rw [hhi]; simp only [Lig.box, h0, if_true, hq, Option.getD_some]; exact le_refl _
    · rcases List.mem_append.1 hcm with hcm | hcm
      · have hb := h.box c hcm
        constructor
        · intro i q hq
          rw [hlo]
          simp only [Lig.box, h0, if_false]
          exact (min_le_left _ _).trans (hb.lo i q hq)
        · intro i q hi hq
          rw [hhi]
          simp only [Lig.box, h0, if_false]
          have := hb.hi i q hi hq
          fin_cases i
          · exact this.trans (le_max_left _ _)
          · exact this.trans (le_max_left _ _)
          · exact absurd rfl hi
      · rw [List.mem_singleton] at hcm
        subst hcm
        constructor
        · intro i q hq
          rw [hlo]
          simp only [Lig.box, h0, if_false, hq, Option.getD_some]
          exact min_le_right _ _
        · intro i q hi hq
          rw [hhi]
          simp only [Lig.box, h0, if_false, hq, Option.getD_some]
          fin_cases i
          · exact le_max_right _ _
          · exact le_max_right _ _
          · exact absurd rfl hi
  · intro x
    rw [hmk]
    split_ifs with hin
    · rw [h.masks]
      constructor
      · rintro ⟨c, hc, e⟩; exact ⟨c, by simp [hc], e⟩
      · rintro ⟨c, hc, e⟩
        rcases List.mem_append.1 hc with hc | hc
        · exact ⟨c, hc, e⟩
        · rw [List.mem_singleton] at hc
          subst hc
          rw [← e]
          exact (h.masks _).1 hin
    · rw [List.mem_append, h.masks, List.mem_singleton]
      constructor
      · rintro (⟨c, hc, e⟩ | e)
        · exact ⟨c, by simp [hc], e⟩
        · exact ⟨b, by simp, e.symm⟩
      · rintro ⟨c, hc, e⟩
        rcases List.mem_append.1 hc with hc | hc
        · exact .inl ⟨c, hc, e⟩
        · rw [List.mem_singleton] at hc
          subst hc
          exact .inr e.symm
  · rw [hmk]
    split_ifs with hin
    · exact h.nodup
    · exact List.Nodup.append h.nodup (by simp) (by simp [hin])
  · rw [hat]
    exact List.rel_append h.atoms (.cons ⟨_, rfl⟩ .nil)
  · rw [hat, List.map_append, h.numbers, List.length_append, List.length_singleton, List.range_succ, List.map_append, h.count]
    rfl
  · rw [hve]
    exact List.rel_append h.speeds (.cons ⟨_, rfl⟩ .nil)
  · rw [hve, List.map_append, h.vels, List.length_append, List.length_singleton, List.range_succ, List.map_append, h.count]
    rfl

theorem lig_fold (mask : ℤ) (bs : List Body) : ∀ (s : Lig) (done : List Body), LigInv s done → LigInv ((bs.filter (chosen mask)).foldl Lig.add s) (done ++ bs.filter (ligBody mask)) := by
  induction bs with
  | nil => intro s done h; simpa using h
  | cons b bs ih =>
    intro s done h
    by_cases hc : chosen mask b = true
    · rw [List.filter_cons_of_pos hc, List.foldl_cons]
      by_cases hm : b.mat.isSome = true
      · rw [List.filter_cons_of_pos (by simp [ligBody, hc, hm])]
        have hr : b.rad.isSome = true := by simp [chosen] at hc; exact hc.1
        have := ih _ _ (h.add hr hm)
        simpa using this
      · rw [List.filter_cons_of_neg (by simp [ligBody, hm])]
        have : s.add b = s := by
          rcases e : b.mat with _ | m
          · simp [Lig.add, e]
          · simp [e] at hm
        rw [this]
        exact ih _ _ h
    · rw [List.filter_cons_of_neg hc, List.filter_cons_of_neg (by simp [ligBody, hc])]
      exact ih _ _ h

/-- **C273, part**: for LIGGGHTS the number of atoms is that of the spheres of the group which have a material, there is a line for each in order, with numbers from one on before `%g`; atom types
are their distinct masks; the box holds the spheres but for the upper end of the third axis.  Missing: that end, and numbers from a million on. -/
theorem C273_liggghts_partial (mask : ℤ) (bs : List Body) : LigInv (liggghts mask bs) (bs.filter (ligBody mask)) := by
  have h0 : LigInv { atoms := [], vels := [], count := 0, lo := 0, hi := 0, masks := [] } [] := ⟨rfl, by simp, by simp, by simp, .nil, rfl, .nil, rfl⟩
  have := lig_fold mask bs _ _ h0
  rwa [List.nil_append] at this

/-- A sphere of radius one at a height. -/
def ballZ (z : ℝ) : Body where
  id := 0
  rad := some 1
  mask := 1
  pos := ![0, 0, z]
  vel := 0
  angVel := 0
  mat := some 0
  dens := 1
  members := none

example : [ballZ 10, ball 0 none].filter (ligBody (-1)) = [ballZ 10] := by simp [ligBody, chosen, ballZ, ball]

/-- **C273 violated**: the box ends above at the top of the last sphere, below the top of one before it. -/
theorem C273_violated_box : (liggghts (-1) [ballZ 10, ballZ 0]).hi 2 = 1 ∧ (ballZ 10).pos 2 + 1 = 11 := by
  constructor
  · simp [liggghts, ballZ, chosen, Lig.add, Lig.box]
  · simp [ballZ]; norm_num

/-- **C273 violated**: numbers of atoms are written with `%g`: those of two neighbours from a million on are one number in the file. -/
theorem C273_violated_ids (P : Py) {bs : List Body} {mask : ℤ} (h : 1000001 ≤ (bs.filter (ligBody mask)).length) :
    ∃ a b, ((liggghts mask bs).atoms.map fun l => (l.head?).bind P.float)[999999]? = some (some a) ∧ ((liggghts mask bs).atoms.map fun l => (l.head?).bind P.float)[1000000]? = some (some b) ∧ a = b := by
  have hn := (C273_liggghts_partial mask bs).numbers
  have e : ((liggghts mask bs).atoms.map fun l => (l.head?).bind P.float) = (List.range (bs.filter (ligBody mask)).length).map fun k => some (P.g6 ((k + 1 : ℕ) : ℝ)) := by
    have : ((liggghts mask bs).atoms.map fun l => (l.head?).bind P.float) = ((liggghts mask bs).atoms.map fun l => l.head?).map fun o => o.bind P.float := by simp
    rw [this, hn]
    simp [Py.float]
  rw [e]
  refine ⟨P.g6 1000000, P.g6 1000001, ?_, ?_, (g6_collide P).symm⟩
  · rw [List.getElem?_map, List.getElem?_range (by omega)]
    norm_num
  · rw [List.getElem?_map, List.getElem?_range (by omega)]
    norm_num

example : 1000001 ≤ ((List.replicate 1000001 (ballZ 0)).filter (ligBody (-1))).length := by
  have : ligBody (-1) (ballZ 0) = true := by simp [ligBody, chosen, ballZ]
  rw [List.filter_replicate, if_pos this, List.length_replicate]

end Verif.Text
