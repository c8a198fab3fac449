import Verif.Loop.Model
import Mathlib.Tactic.Linarith
import Mathlib.Tactic.NormNum
import Mathlib.Tactic.SplitIfs
import Mathlib.Tactic.Tauto
/-!
# Specification of the interaction loop and all ways through it
-/
namespace Verif.Loop
open Verif

variable {G Ph : Type}

/-! ## Specification -/

/-- what functors must do: a geometry functor that succeeds leaves a geometry, one that fails leaves what was there; a physics functor
leaves physics -/
structure FnOk (E : Env G Ph) : Prop where
  made : ∀ f i j d g, (E.geomGo f i j d g).1 = true → (E.geomGo f i j d g).2.isSome = true
  left : ∀ f i j d g, (E.geomGo f i j d g).1 = false → (E.geomGo f i j d g).2 = g
  phys : ∀ p i j g q, (E.physGo p i j g q).isSome = true

/-- the interaction was not seen by a collider that ran in this step and relies on the loop for removal -/
def NotSeen (E : Env G Ph) (I : Intr G Ph) : Prop := 0 ≤ E.lastRun ∧ E.lastRun = E.iter ∧ I.isReal = false ∧ I.lastSeen < E.iter

/-- one of the bodies is gone -/
def Gone (E : Env G Ph) (I : Intr G Ph) : Prop := E.body I.id1 = none ∨ E.body I.id2 = none

/-- both bodies belong to other subdomains -/
def Elsewhere (E : Env G Ph) (I : Intr G Ph) : Prop :=
  ∃ b1 b2, E.body I.id1 = some b1 ∧ E.body I.id2 = some b2 ∧ b1.sub ≠ E.sub ∧ b2.sub ≠ E.sub

/-- the shift the geometry functor gets -/
def shiftOf (E : Env G Ph) (d : Fin 3 → Int) : Fin 3 → Int := if E.periodic then d else fun _ => 0

/-- the geometry is to be computed by functor `f` for the bodies `i`, `j` in this order, which are `b` and `c` with shapes `s` and `t`,
with the shift `d` -/
def Turn (E : Env G Ph) (I : Intr G Ph) (f i j : Nat) (b c : Bdy) (s t : Nat) (d : Fin 3 → Int) : Prop :=
  ¬ NotSeen E I ∧ E.body i = some b ∧ E.body j = some c ∧ (b.sub = E.sub ∨ c.sub = E.sub) ∧
    b.clump = false ∧ c.clump = false ∧ I.geomExists = true ∧ b.shape = some s ∧ c.shape = some t ∧
    (((I.cg = some f ∨ (I.cg = none ∧ E.geomDisp s t = some (f, false))) ∧ i = I.id1 ∧ j = I.id2 ∧ d = shiftOf E I.dist) ∨
     (I.cg = none ∧ E.geomDisp t s = some (f, true) ∧ I.geom = none ∧ I.phys = none ∧ i = I.id2 ∧ j = I.id1 ∧
      d = shiftOf E fun a => -I.dist a))

/-- the interaction is passed over: a body is a clump or has no shape, or there is no functor -/
def Passed (E : Env G Ph) (I : Intr G Ph) : Prop :=
  ∃ b1 b2, E.body I.id1 = some b1 ∧ E.body I.id2 = some b2 ∧ (b1.sub = E.sub ∨ b2.sub = E.sub) ∧
    (b1.clump = true ∨ b2.clump = true ∨ I.geomExists = false ∨ b1.shape = none ∨ b2.shape = none ∨
      ∃ s1 s2, b1.shape = some s1 ∧ b2.shape = some s2 ∧ I.cg = none ∧ E.geomDisp s1 s2 = none)

/-! ## All ways through the loop -/

theorem unseen_iff (E : Env G Ph) (I : Intr G Ph) : unseen E I = true ↔ NotSeen E I := by
  unfold unseen NotSeen
  simp only [Bool.and_eq_true, decide_eq_true_eq, Bool.not_eq_true', ge_iff_le]
  tauto

/-- the result of the law -/
def afterLaw (r : LawRes G Ph) (J : Intr G Ph) : Intr G Ph :=
  let I := if r.erased then J.reset else { J with geom := some r.geom, phys := some r.phys }
  if r.keep then I else I.reset

/-- all normal ways through the loop -/
inductive Way (E : Env G Ph) (I : Intr G Ph) : Intr G Ph → List (Ev G Ph) → Prop
  | later (h : NotSeen E I) : Way E I I [.later I.id1 I.id2]
  | gone (h : ¬ NotSeen E I) (hg : Gone E I) : Way E I I.reset []
  | elsewhere (h : ¬ NotSeen E I) (he : Elsewhere E I) : Way E I I.reset []
  | passed (h : ¬ NotSeen E I) (hp : Passed E I) (b : Bool) (hb : b = I.geomExists ∨ (b = false ∧ I.cg = none)) : Way E I { I with geomExists := b } []
  | apart (f i j : Nat) (b c : Bdy) (s t : Nat) (d d' : Fin 3 → Int) (ht : Turn E I f i j b c s t d) (hg : (E.geomGo f i j d I.geom).1 = false)
      (J : Intr G Ph) (hJ : J = { I with id1 := i, id2 := j, dist := d', cg := some f, geom := (E.geomGo f i j d I.geom).2 })
      (hd : i = I.id1 ∧ d' = I.dist ∨ i = I.id2 ∧ d' = fun a => -I.dist a) :
      Way E I (if I.isReal then J.reset else J) [.geom f i j s t d]
  | law (f i j : Nat) (b c : Bdy) (s t : Nat) (d d' : Fin 3 → Int) (ht : Turn E I f i j b c s t d) (hg : (E.geomGo f i j d I.geom).1 = true)
      (g : G) (p : Ph) (l q : Nat) (hgg : (E.geomGo f i j d I.geom).2 = some g) (hp : E.physGo q i j g I.phys = some p)
      (hq : I.cp = some q ∨ (I.cp = none ∧ E.physDisp b.mat c.mat = some q)) (hl : I.cl = some l ∨ (I.cl = none ∧ E.lawDisp g p = some l))
      (J : Intr G Ph)
      (hJ : J = { I with
        id1 := i, id2 := j, dist := d', cg := some f, geom := some g, cp := some q, phys := some p, cl := some l,
        madeReal := if I.isReal then I.madeReal else E.iter })
      (hd : i = I.id1 ∧ d' = I.dist ∨ i = I.id2 ∧ d' = fun a => -I.dist a) :
      Way E I (afterLaw (E.lawGo l J g p) J)
        ([.geom f i j s t d, .law l J g p] ++ if (afterLaw (E.lawGo l J g p) J).isReal then callAll (afterLaw (E.lawGo l J g p) J) E.callbacks 0 else [])

theorem applyLaw_done {E : Env G Ph} {I I' : Intr G Ph} {ev ev' : List (Ev G Ph)} (h : applyLaw E I ev = .done I' ev') :
    ∃ g p l, I.geom = some g ∧ I.phys = some p ∧ (I.cl = some l ∨ (I.cl = none ∧ E.lawDisp g p = some l)) ∧
      I' = afterLaw (E.lawGo l { I with cl := some l } g p) { I with cl := some l } ∧
      ev' = ev ++ [.law l { I with cl := some l } g p] ++ if I'.isReal then callAll I' E.callbacks 0 else [] := by
  unfold applyLaw at h
  split at h
  · rename_i g p hg hp
    split at h
    · cases h
    · rename_i l hl
      refine ⟨g, p, l, hg, hp, ?_, ?_⟩
      · cases e : I.cl with
        | none => rw [e] at hl; exact Or.inr ⟨rfl, hl⟩
        | some l' => rw [e] at hl; exact Or.inl hl
      change (if (afterLaw (E.lawGo l { I with cl := some l } g p) { I with cl := some l }).isReal = true then
        Out.done (afterLaw (E.lawGo l { I with cl := some l } g p) { I with cl := some l }) (ev ++ [.law l { I with cl := some l } g p] ++
          callAll (afterLaw (E.lawGo l { I with cl := some l } g p) { I with cl := some l }) E.callbacks 0)
        else .done (afterLaw (E.lawGo l { I with cl := some l } g p) { I with cl := some l }) (ev ++ [.law l { I with cl := some l } g p])) = _ at h
      generalize afterLaw (E.lawGo l { I with cl := some l } g p) { I with cl := some l } = K at h ⊢
      split at h <;> rename_i hr <;> cases h
      · exact ⟨rfl, by rw [if_pos hr]⟩
      · exact ⟨rfl, by rw [if_neg hr, List.append_nil]⟩
  · cases h

theorem contact_ways {E : Env G Ph} {I K : Intr G Ph} {f s t : Nat} {b c : Bdy} {I' : Intr G Ph} {ev : List (Ev G Ph)}
    (hK : K = { I with id1 := K.id1, id2 := K.id2, dist := K.dist, cg := some f })
    (hd : K.id1 = I.id1 ∧ K.dist = I.dist ∨ K.id1 = I.id2 ∧ K.dist = fun a => -I.dist a)
    (ht : Turn E I f K.id1 K.id2 b c s t (shiftOf E K.dist)) (h : contact E K f s t b.mat c.mat = .done I' ev) : Way E I I' ev := by
  obtain ⟨i, j, k1, k2, k3, k4, k5, k6, k7, k8, k9⟩ := K
  simp only [Intr.mk.injEq, true_and] at hK
  obtain ⟨rfl, rfl, rfl, rfl, rfl, rfl, rfl, rfl, -⟩ := hK
  unfold contact at h
  simp only at h
  have hs : (if E.periodic then k9 else fun _ => 0) = shiftOf E k9 := rfl
  rw [hs] at h
  have hr : Intr.isReal ⟨i, j, I.geom, I.phys, I.geomExists, some f, I.cp, I.cl, I.madeReal, I.lastSeen, k9⟩ = I.isReal := rfl
  rw [hr] at h
  split at h
  · rename_i hc
    cases h
    exact .apart f i j b c s t (shiftOf E k9) k9 ht (by simpa using hc) _ rfl hd
  · rename_i hc
    split at h
    · cases h
    · rename_i q hcp
      have hq : I.cp = some q ∨ (I.cp = none ∧ E.physDisp b.mat c.mat = some q) := by
        cases e : I.cp with
        | none => rw [e] at hcp; exact Or.inr ⟨rfl, hcp⟩
        | some l' => rw [e] at hcp; exact Or.inl hcp
      split at h
      · cases h
      · rename_i g hg
        have hw : (if (!I.isReal) = true then E.iter else I.madeReal) = if I.isReal then I.madeReal else E.iter := by
          cases I.isReal <;> simp
        rw [hw] at h
        obtain ⟨g', p, l, h1, h2, hl, h3, h4⟩ := applyLaw_done h
        have hg : (E.geomGo f i j (shiftOf E k9) I.geom).2 = some g := hg
        have h2 : E.physGo q i j g I.phys = some p := h2
        have : g' = g := by rw [show (E.geomGo f i j (shiftOf E k9) I.geom).2 = some g' from h1] at hg; cases hg; rfl
        subst this
        rw [hg, h2] at h3 h4
        rw [h4, h3]
        exact Way.law (E := E) (I := I) f i j b c s t (shiftOf E k9) k9 ht (by simpa using hc) g' p l q hg h2 hq hl _ rfl hd

/-- every normal end is one of the ways -/
theorem ways {E : Env G Ph} {I I' : Intr G Ph} {ev : List (Ev G Ph)} (h : process E I = .done I' ev) : Way E I I' ev := by
  unfold process at h
  split at h
  · rename_i hu
    cases h
    exact .later ((unseen_iff E I).mp hu)
  · rename_i hu
    have hu : ¬ NotSeen E I := fun k => hu ((unseen_iff E I).mpr k)
    split at h
    · rename_i b1 b2 e1 e2
      split at h
      · rename_i hs
        cases h
        exact .elsewhere hu ⟨b1, b2, e1, e2, fun e => hs.1 e.symm, fun e => hs.2 e.symm⟩
      · rename_i hs
        have hs : b1.sub = E.sub ∨ b2.sub = E.sub := by
          by_cases c : b1.sub = E.sub
          · exact Or.inl c
          · exact Or.inr (Classical.byContradiction fun c' => hs ⟨fun e => c e.symm, fun e => c' e.symm⟩)
        split at h
        · rename_i hc
          cases h
          refine Way.passed hu ⟨b1, b2, e1, e2, hs, ?_⟩ I.geomExists (Or.inl rfl)
          simp only [Bool.or_eq_true] at hc
          tauto
        · rename_i hc
          simp only [Bool.or_eq_true, not_or, Bool.not_eq_true] at hc
          split at h
          · rename_i hx
            cases h
            exact Way.passed hu ⟨b1, b2, e1, e2, hs, Or.inr (Or.inr (Or.inl (by simpa using hx)))⟩ I.geomExists (Or.inl rfl)
          · rename_i hx
            have hx : I.geomExists = true := by simpa using hx
            split at h
            · rename_i s1 s2 t1 t2
              split at h
              · rename_i hf
                cases h
                have hcg : I.cg = none := by cases e : I.cg with
                  | none => rfl
                  | some f => rw [e] at hf; cases hf
                rw [hcg] at hf
                exact .passed hu ⟨b1, b2, e1, e2, hs, Or.inr (Or.inr (Or.inr (Or.inr (Or.inr ⟨s1, s2, t1, t2, hcg, hf⟩))))⟩ false (Or.inr ⟨rfl, hcg⟩)
              · rename_i f sw hf
                dsimp only at h
                split at h
                · rename_i hsw
                  subst hsw
                  have hcg : I.cg = none := by cases e : I.cg with
                    | none => rfl
                    | some f => rw [e] at hf; cases hf
                  rw [hcg] at hf
                  unfold Intr.swapOrder at h
                  by_cases hgp : (I.geom.isSome || I.phys.isSome) = true
                  · rw [if_pos (by exact hgp)] at h; cases h
                  · rw [if_neg (by exact hgp)] at h
                    simp only at h
                    simp only [Bool.or_eq_true, not_or, Bool.not_eq_true, Option.isSome_eq_false_iff, Option.isNone_iff_eq_none] at hgp
                    have hmul : (fun a => I.dist a * -1) = fun a => -I.dist a := by funext a; omega
                    rw [hmul] at h
                    refine contact_ways (I := I) rfl (Or.inr ⟨rfl, rfl⟩) ?_ h
                    exact ⟨hu, e2, e1, hs.symm, hc.2, hc.1, hx, t2, t1, Or.inr ⟨hcg, hf, hgp.1, hgp.2, rfl, rfl, rfl⟩⟩
                · rename_i hsw
                  have hsw : sw = false := by simpa using hsw
                  subst hsw
                  refine contact_ways (I := I) (K := { I with cg := some f }) rfl (Or.inl ⟨rfl, rfl⟩) ?_ h
                  refine ⟨hu, e1, e2, hs, hc.1, hc.2, hx, t1, t2, Or.inl ⟨?_, rfl, rfl, rfl⟩⟩
                  cases e : I.cg with
                  | none => rw [e] at hf; exact Or.inr ⟨rfl, hf⟩
                  | some f' => rw [e] at hf; cases hf; exact Or.inl rfl
            · rename_i hsh
              cases h
              refine Way.passed hu ⟨b1, b2, e1, e2, hs, ?_⟩ I.geomExists (Or.inl rfl)
              cases t1 : b1.shape with
              | none => tauto
              | some s1 =>
                cases t2 : b2.shape with
                | none => tauto
                | some s2 => exact absurd t2 (hsh s1 s2 t1)
    · rename_i hb
      cases h
      refine .gone hu ?_
      unfold Gone
      cases e1 : E.body I.id1 with
      | none => exact Or.inl rfl
      | some b1 =>
        cases e2 : E.body I.id2 with
        | none => exact Or.inr rfl
        | some b2 => exact absurd e2 (hb b1 b2 e1)

end Verif.Loop
