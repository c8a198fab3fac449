import Verif.Pack.CloudLemmas

/-!
# Following single runs of `makeCloud`
-/
namespace Verif.Pack
open Verif.Mech
open scoped Classical

theorem place_first {a : Args} {r : ℝ} {pack : List Sph} {g : Rnd} (h : ∀ s ∈ pack, ¬ overlaps a (candidate a r g).1 r s) :
    place a r pack maxTry g = (some (candidate a r g).1, (candidate a r g).2) := by
  rw [show maxTry = 999 + 1 from rfl, place]
  dsimp only
  rw [if_neg]
  rintro ⟨s, hs, ho⟩
  exact h s hs ho

theorem place_never {a : Args} {r : ℝ} {pack : List Sph} (P : Rnd → Prop) (hP : ∀ g, P g → P (candidate a r g).2)
    (h : ∀ g, P g → ∃ s ∈ pack, overlaps a (candidate a r g).1 r s) (n : Nat) {g : Rnd} (hg : P g) :
    ∃ g', P g' ∧ place a r pack n g = (none, g') := by
  induction n generalizing g with
  | zero => exact ⟨g, hg, rfl⟩
  | succ n ih =>
    rw [place]
    dsimp only
    rw [if_pos (h g hg)]
    exact ih (hP g hg)

theorem loop_step {a : Args} {d : Dist} {n i : Nat} {pack : List Sph} {g : Rnd} {r : ℝ} (hn : a.num > 0) (hi : (i : Int) < a.num)
    (hr : radius a d (((a.num : ℝ) - i + 0.5) / (a.num + 1)) = .ok r) (h : ∀ s ∈ pack, ¬ overlaps a (candidate a r g).1 r s) :
    cloudLoop a d (n + 1) i pack g =
      cloudLoop a d n (i + 1) (pack ++ [{ c := (candidate a r g).1, r := r }]) (candidate a r g).2 := by
  rw [cloudLoop, if_pos (Or.inl hi), sizeNumber, if_pos hn]
  dsimp only
  rw [hr]
  dsimp only
  rw [place_first h]

theorem loop_end {a : Args} {d : Dist} {n i : Nat} {pack : List Sph} {g : Rnd} (hi : (i : Int) = a.num) :
    cloudLoop a d (n + 1) i pack g = some (.ok (.all, pack, g)) := by
  rw [cloudLoop, if_neg (by omega)]

theorem cloud_all {n : Nat} {a : Args} {sp : SpherePack} {g g' : Rnd} {d : Dist} {s : ℝ} {pack : List Sph}
    (hp : plan a sp.scaling = .ok (d, s)) (h : cloudLoop a d (n + 1) 0 sp.pack g = some (.ok (.all, pack, g'))) :
    ∃ sp', sp'.pack = pack ∧ makeCloud (n + 1) a sp g = some (.ok (sp', (pack.length : Int), g')) := by
  rw [makeCloud, hp]
  dsimp only
  rw [h]
  exact ⟨_, rfl, rfl⟩

theorem plan_rmean {a : Args} {s : ℝ} (hm : 0 < a.rMean) (hps : a.psdSizes = []) (hh : a.hSize = 0 ∨ a.hSize.det ≠ 0) :
    plan a s = .ok (.rmean a.rMean, s) := by
  rw [plan, if_neg, if_pos hm, if_pos hps]
  rintro ⟨h1, h2⟩
  rcases hh with hh | hh
  · exact h2 hh
  · apply hh
    rw [Args.cell, if_neg h2] at h1
    exact h1

theorem radius_fix {a : Args} {m x : ℝ} (hf : a.fuzz = 0) (hd : a.distributeMass = false) : radius a (.rmean m) x = .ok m := by
  simp [radius, hf, hd]

theorem radius_fix' {a : Args} {m x : ℝ} (hf : a.fuzz = 0) (hd : a.distributeMass = false) : radius a (.num m) x = .ok m := by
  simp [radius, hf, hd]

theorem size_apply (a : Args) (i : Fin 3) : a.size i = a.mx i - a.mn i := rfl

end Verif.Pack
