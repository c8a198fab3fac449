import Verif.Pack.ClumpLemmas

/-!
# What the loop of random packings of clumps keeps up
-/
namespace Verif.Pack
open Verif.Mech
open scoped Classical

/-- What the loop keeps up: the new clumps, one after another. -/
structure Clumped (mn mx cell : V3) (periodic : Bool) (num : Int) (temps : List (List Sph)) (pack0 : List Sph) (nGen : Nat) (pack : List Sph)
    (infos : List ClumpInfo) (gs : List (ClumpInfo × List Sph)) : Prop where
  pack_ : pack = pack0 ++ (gs.map Prod.snd).flatten
  infos_ : infos = gs.map Prod.fst
  len : gs.length = nGen
  num_ : 0 ≤ num → (nGen : Int) ≤ num
  block : ∀ x ∈ gs, Block pack x.1 x.2
  rad : ∀ x ∈ gs, ∀ p ∈ x.2, 0 ≤ p.r
  apart_ : gs.Pairwise fun x y => ∀ p ∈ x.2, ∀ s ∈ y.2, ApartIn periodic cell p s
  ids : ∀ (j : Nat) (x : ClumpInfo × List Sph), gs[j]? = some x → ∀ p ∈ x.2, p.clumpId = j
  copy_ : ∀ x ∈ gs, ∃ c ∈ temps, RigidCopy c x.2
  at_ : (∀ i, mn i ≤ mx i) → ∀ x ∈ gs, ∃ c ∈ temps, PutAt mn mx c x.2
  box : periodic = false → ∀ x ∈ gs, ∀ p ∈ x.2, ∀ i, mn i ≤ p.c i - p.r ∧ p.c i + p.r ≤ mx i

theorem clumped_step {mn mx cell : V3} {periodic : Bool} (hc : periodic = true → ∀ a, 0 < cell a) {num : Int} {temps : List SpherePack}
    (hr : ∀ c ∈ temps, ∀ s ∈ c.pack, 0 ≤ s.r) {pack0 : List Sph}
    (nGen : Nat) (pack : List Sph) (infos : List ClumpInfo) (c : List Sph) (g : Rnd) (hg : Good g) (hm : c ∈ temps.map recentered) (hn : (nGen : Int) < num ∨ num < 0)
    (hcol : collides mn mx cell periodic pack infos (placed c (randomOri g) (randomPos mn mx g)) (randomPos mn mx g) (boundRad c) = .ok false)
    (h : ∃ gs, Clumped mn mx cell periodic num (temps.map (·.pack)) pack0 nGen pack infos gs) :
    ∃ gs, Clumped mn mx cell periodic num (temps.map (·.pack)) pack0 (nGen + 1)
      (pack ++ (placed c (randomOri g) (randomPos mn mx g)).map fun s => { s with clumpId := nGen })
      (infos ++ [⟨nGen, randomPos mn mx g, boundRad c, pack.length, pack.length + (placed c (randomOri g) (randomPos mn mx g)).length⟩]) gs := by
  obtain ⟨gs, h⟩ := h
  obtain ⟨sp, hsp, rfl⟩ := List.mem_map.mp hm
  set pos := randomPos mn mx g with hpos
  set C := placed (recentered sp) (randomOri g) pos with hC
  set info : ClumpInfo := ⟨nGen, pos, boundRad (recentered sp), pack.length, pack.length + C.length⟩ with hinfo
  have hbound : ∀ s ∈ C, norm3 (s.c - pos) + s.r ≤ boundRad (recentered sp) := placed_bound _ _ _
  have hrad : ∀ s ∈ C, 0 ≤ s.r := by
    intro s hs
    rw [hC, placed_eq, recentered, translate] at hs
    simp only [List.map_map, List.mem_map, Function.comp_apply] at hs
    obtain ⟨t, ht, rfl⟩ := hs
    exact hr sp hsp t ht
  obtain ⟨hscan, hbox⟩ := collides_false hcol
  refine ⟨gs ++ [(info, C.map fun s => { s with clumpId := nGen })], ?_, ?_, ?_, ?_, ?_, ?_, ?_, ?_, ?_, ?_, ?_⟩
  · rw [h.pack_]; simp
  · rw [h.infos_]; simp
  · simp [h.len]
  · intro h0; push_cast; omega
  · intro x hx
    rcases List.mem_append.mp hx with hx | hx
    · exact (h.block x hx).append _
    · rw [List.mem_singleton] at hx
      subst hx
      refine ⟨?_, by simp [hinfo], ?_, (boundRad_le _).1⟩
      · intro k p hk
        simp only [hinfo]
        rw [List.getElem?_append_right (by omega), Nat.add_sub_cancel_left]
        exact hk
      · intro p hp
        obtain ⟨s, hs, rfl⟩ := List.mem_map.mp hp
        exact hbound s hs
  · intro x hx
    rcases List.mem_append.mp hx with hx | hx
    · exact h.rad x hx
    · rw [List.mem_singleton] at hx
      subst hx
      intro p hp
      obtain ⟨s, hs, rfl⟩ := List.mem_map.mp hp
      exact hrad s hs
  · rw [List.pairwise_append]
    refine ⟨h.apart_, by simp, ?_⟩
    intro x hx y hy
    rw [List.mem_singleton] at hy
    subst hy
    intro p hp s' hs'
    obtain ⟨s, hs, rfl⟩ := List.mem_map.mp hs'
    exact apart_of_scan hc hscan hbound (boundRad_le _).1 hrad (by rw [h.infos_]; exact List.mem_map_of_mem hx) (h.block x hx) (h.rad x hx) p hp s hs
  · intro j x hj
    by_cases hlt : j < gs.length
    · rw [List.getElem?_append_left hlt] at hj
      exact h.ids j x hj
    · rw [List.getElem?_append_right (by omega)] at hj
      have hj0 : j - gs.length = 0 := by
        by_contra hne
        rw [List.getElem?_eq_none (by simp; omega)] at hj
        cases hj
      rw [hj0] at hj
      simp only [List.getElem?_cons_zero, Option.some.injEq] at hj
      subst hj
      intro p hp
      obtain ⟨s, hs, rfl⟩ := List.mem_map.mp hp
      have : j = nGen := by rw [← h.len]; omega
      rw [this]
  · intro x hx
    rcases List.mem_append.mp hx with hx | hx
    · exact h.copy_ x hx
    · rw [List.mem_singleton] at hx
      subst hx
      exact ⟨sp.pack, List.mem_map_of_mem hsp, placed_copy sp g pos _⟩
  · intro hle x hx
    rcases List.mem_append.mp hx with hx | hx
    · exact h.at_ hle x hx
    · rw [List.mem_singleton] at hx
      subst hx
      exact ⟨sp.pack, List.mem_map_of_mem hsp, placed_at hle sp hg _⟩
  · intro hp x hx
    rcases List.mem_append.mp hx with hx | hx
    · exact h.box hp x hx
    · rw [List.mem_singleton] at hx
      subst hx
      intro p hp' i
      obtain ⟨s, hs, rfl⟩ := List.mem_map.mp hp'
      simp only
      rcases hbox hp with hb | hb
      · simp only [beyond, not_exists, not_or, not_lt] at hb
        obtain ⟨b1, b2⟩ := hb i
        have hs1 := hbound s hs
        have hs2 := comp_le (s.c - pos) i
        rw [Pi.sub_apply, abs_le] at hs2
        constructor <;> linarith [hs2.1, hs2.2]
      · have := hb s hs
        simp only [beyond, not_exists, not_or, not_lt, gt_iff_lt] at this
        exact ⟨(this i).2, (this i).1⟩

/-- All that is known of a packing of clumps. -/
theorem cloud_clumped {n : Nat} {mn mx : V3} {temps : List SpherePack} {periodic : Bool} {num : Int} {sp sp' : SpherePack} {g g' : Rnd} {k : Nat}
    (hg : Good g) (hbox : periodic = true → ∀ a, mn a < mx a) (hr : ∀ c ∈ temps, ∀ s ∈ c.pack, 0 ≤ s.r)
    (h : makeClumpCloud n mn mx temps periodic num sp g = some (.ok (sp', k, g'))) :
    ∃ infos gs, Clumped mn mx (mx - mn) periodic num (temps.map (·.pack)) sp.pack k sp'.pack infos gs := by
  rw [makeClumpCloud] at h
  simp only [Option.map_eq_some_iff] at h
  obtain ⟨r, hl, hb⟩ := h
  rcases r with ⟨pack, k', g1⟩ | _ | _
  · rw [Res.bind_ok] at hb
    have hb := Res.ok.inj hb
    simp only [Prod.mk.injEq] at hb
    obtain ⟨e1, e2, -⟩ := hb
    subst e2
    have hpk : sp'.pack = pack := by rw [← e1]
    rw [hpk]
    cases periodic with
    | true =>
      simp only [if_true] at hl
      obtain ⟨infos, hP, -⟩ := clump_inv (P := fun nGen pack infos => ∃ gs, Clumped mn mx (mx - mn) true num (temps.map (·.pack)) sp.pack nGen pack infos gs)
        (fun nGen pack infos c g hm hg hn hcol h => clumped_step (fun _ a => by simpa using hbox rfl a) hr nGen pack infos c g hg hm hn hcol h) hg
        ⟨[], by constructor <;> simp⟩ hl
      exact ⟨infos, hP⟩
    | false =>
      simp only [Bool.false_eq_true, if_false] at hl
      obtain ⟨infos, hP⟩ := clump_inv (P := fun nGen pack infos => ∃ gs, Clumped mn mx sp.cellSize false num (temps.map (·.pack)) sp.pack nGen pack infos gs)
        (fun nGen pack infos c g hm hg hn hcol h => clumped_step (fun h => by cases h) hr nGen pack infos c g hg hm hn hcol h) hg
        ⟨[], by constructor <;> simp⟩ hl
      obtain ⟨gs, hP⟩ := hP.1
      refine ⟨infos, gs, hP.pack_, hP.infos_, hP.len, hP.num_, hP.block, hP.rad, ?_, hP.ids, hP.copy_, hP.at_, hP.box⟩
      exact hP.apart_
  · cases hb
  · cases hb

end Verif.Pack
