import Verif.Pack.MoveProps
import Verif.Pack.PadProps

/-!
# C155: cutting a solid out of a packing
-/
namespace Verif.Pack
open Verif.Mech
open scoped Classical

/-- C155.  Cutting a solid out of a packing: the packing is moved so that the centre of its box comes to lie at the centre of the box of the
solid; the result has exactly the moved spheres for which the predicate is true with the radius as pad, in the order they were in.  They
overlap no more than before, and lie wholly in the solid if it is built of spheres, boxes, parallelepipeds and cylinders by union,
intersection and difference. -/
theorem C155_filter {s : Solid} {sp sp' moved : SpherePack} (h0 : sp.pack ≠ []) (h : filterSpherePack s sp = .ok (sp', moved)) :
    ∃ v mn mx mn' mx', s.aabb = some (fin mn, fin mx) ∧ packBox moved.pack = some (mn', mx') ∧
    (∀ i, (mn' i + mx' i) / 2 = (mn i + mx i) / 2) ∧ moved = translate v sp ∧
    sp'.pack.map (fun b => (b.c, b.r)) = (moved.pack.filter fun b => s.inside b.c b.r).map (fun b => (b.c, b.r)) ∧
    (NoOverlap sp.pack → NoOverlap sp'.pack) ∧
    (s.Proper → s.Plain → ∀ b ∈ sp'.pack, ∀ y, norm3 (y - b.c) ≤ b.r → y ∈ s.set) := by
  rw [filterSpherePack] at h
  rcases hbox : s.aabb with _ | ⟨mn, mx⟩
  · rw [hbox] at h
    rcases hp : packBox sp.pack with _ | b
    · exact absurd ((C147_box _).1.mp hp) h0
    · rw [hp] at h; cases h
  rcases hp : packBox sp.pack with _ | ⟨pn, px⟩
  · exact absurd ((C147_box _).1.mp hp) h0
  rw [hbox, hp] at h
  simp only at h
  split_ifs at h with hinf
  push_neg at hinf
  have h := Res.ok.inj h
  simp only [Prod.mk.injEq] at h
  obtain ⟨e1, e2⟩ := h
  have f1 : mn = fin fun i => (mn i).toReal := by
    funext i; rw [fin, EReal.coe_toReal (hinf i).2.2.2 (hinf i).2.1]
  have f2 : mx = fin fun i => (mx i).toReal := by
    funext i; rw [fin, EReal.coe_toReal (hinf i).1 (hinf i).2.2.1]
  rcases hq : packBox moved.pack with _ | ⟨qn, qx⟩
  · have := (C147_box _).1.mp hq
    rw [← e2, translate, List.map_eq_nil_iff] at this
    exact absurd this h0
  have tr := C148_translate ((fun i => ((mn i).toReal + (mx i).toReal) / 2) - midPt sp.pack) sp
  rw [e2] at tr
  have hpack : sp'.pack = (moved.pack.filter fun b => s.inside b.c b.r).map fun b => { c := b.c, r := b.r } := by rw [← e1, ← e2]
  refine ⟨(fun i => ((mn i).toReal + (mx i).toReal) / 2) - midPt sp.pack, fun i => (mn i).toReal, fun i => (mx i).toReal, qn, qx,
    by rw [← f1, ← f2], rfl, ?_, e2.symm, ?_, ?_, ?_⟩
  · intro i
    have b := (C147_box _).2 pn px hp i
    have b' := (C147_box _).2 qn qx hq i
    generalize hv : (fun i => ((mn i).toReal + (mx i).toReal) / 2) - midPt sp.pack = v at *
    have e : qn i = pn i + v i ∧ qx i = px i + v i := by
      refine box_unique b' ⟨?_, ?_, ?_⟩
      · intro t ht
        rw [← e2] at ht
        obtain ⟨u, hu, rfl⟩ := List.mem_map.mp ht
        have := b.1 u hu
        simp only [Pi.add_apply]
        constructor <;> linarith
      · obtain ⟨u, hu, hu'⟩ := b.2.1
        refine ⟨{ u with c := u.c + v }, ?_, ?_⟩
        · rw [← e2]; exact List.mem_map.mpr ⟨u, hu, rfl⟩
        · simp only [Pi.add_apply]; linarith
      · obtain ⟨u, hu, hu'⟩ := b.2.2
        refine ⟨{ u with c := u.c + v }, ?_, ?_⟩
        · rw [← e2]; exact List.mem_map.mpr ⟨u, hu, rfl⟩
        · simp only [Pi.add_apply]; linarith
    have hvi := congrFun hv i
    simp only [Pi.sub_apply, midPt, hp, Pi.smul_apply, Pi.add_apply, smul_eq_mul] at hvi
    rw [e.1, e.2, ← hvi]
    norm_num
    ring
  · rw [hpack, List.map_map]
    rfl
  · intro hno
    have := tr.2.1 hno
    rw [NoOverlap] at this ⊢
    rw [hpack, List.pairwise_map]
    exact this.filter _
  · intro hpr hpl b hb y hy
    rw [hpack] at hb
    obtain ⟨u, hu, rfl⟩ := List.mem_map.mp hb
    have hin : s.inside u.c u.r := by simpa using (List.mem_filter.mp hu).2
    exact (C141_ball_partial hpr hpl hin).1 y hy

/-- C155, the other outcomes: solids with a finite box and packings with spheres have a result. -/
theorem C155_result {s : Solid} {sp : SpherePack} {mn mx : V3} (h : s.aabb = some (fin mn, fin mx)) :
    ∃ sp' moved, filterSpherePack s sp = .ok (sp', moved) := by
  rw [filterSpherePack, h]
  rcases packBox sp.pack with _ | b
  · exact ⟨_, _, rfl⟩
  · simp only
    rw [if_neg (by push_neg; exact fun i => ⟨EReal.coe_ne_top _, EReal.coe_ne_bot _, EReal.coe_ne_bot _, EReal.coe_ne_top _⟩)]
    exact ⟨_, _, rfl⟩

/-- A box cut out of a packing of one sphere. -/
example : ∃ sp' moved, filterSpherePack (.box 0 ![4, 4, 4]) ⟨[{ c := ![9, 9, 9], r := 1 }], 0, 1, false⟩ = .ok (sp', moved) :=
  C155_result (mn := 0) (mx := ![4, 4, 4]) rfl

end Verif.Pack
