import Verif.Bodies.Lemmas
/-! # Consistency of clump membership is kept by the primitive operations -/
namespace Verif.Bodies
open Verif

/-- Membership is consistent, as seen from outside: `V k` is the body found at id `k`. -/
structure ConsV (V : Int → Option BObj) : Prop where
  nonneg : ∀ k o, V k = some o → 0 ≤ k
  owner : ∀ k o, V k = some o → o.clumpId ≠ -1 →
    ∃ oc ms, V o.clumpId = some oc ∧ oc.members = some ms ∧ oc.clumpId = o.clumpId ∧
      (k ≠ o.clumpId → k ∈ ms)
  listed : ∀ c oc ms k, V c = some oc → oc.members = some ms → k ∈ ms →
    ∃ o, V k = some o ∧ o.clumpId = c ∧ k ≠ c
  nodup : ∀ c oc ms, V c = some oc → oc.members = some ms → ms.Nodup

/-- two-point update of a view -/
def up (V : Int → Option BObj) (k : Int) (x : Option BObj) : Int → Option BObj :=
  fun j => if j = k then x else V j

theorem up_same (V : Int → Option BObj) (k : Int) (x : Option BObj) : up V k x k = x := by simp [up]
theorem up_other (V : Int → Option BObj) {k j : Int} (x : Option BObj) (h : j ≠ k) : up V k x j = V j := by
  simp [up, h]

theorem ConsV.noMembers {V} (h : ConsV V) {k : Int} {o : BObj} (hk : V k = some o) (hc : o.clumpId ≠ k) :
    o.members = none ∨ o.members = some [] := by
  cases hm : o.members with
  | none => exact Or.inl rfl
  | some ms =>
    right
    cases ms with
    | nil => rfl
    | cons x xs =>
      obtain ⟨ox, e1, e2, e3⟩ := h.listed k o (x :: xs) x hk hm (by simp)
      have h0 := h.nonneg k o hk
      obtain ⟨oc, ms, a, b, c, d⟩ := h.owner x ox e1 (by omega)
      rw [e2, hk] at a
      have : o = oc := by simpa using a
      subst this
      omega

theorem consV_detach {V} (h : ConsV V) {kb kc : Int} {ob oc : BObj} {ms : List Int}
    (hb : V kb = some ob) (hob : ob.clumpId = kc) (hne : kb ≠ kc)
    (hc : V kc = some oc) (hm : oc.members = some ms) :
    ConsV (up (up V kc (some (oc.setMembers ((ms.filter (· ≠ kb)))))) kb
      (some (ob.setClump idNone))) := by
  have h0c := h.nonneg kc oc hc
  have h0b := h.nonneg kb ob hb
  have hcc : oc.clumpId = kc := by
    obtain ⟨oc', ms', a, b, c, d⟩ := h.owner kb ob hb (by omega)
    rw [hob, hc] at a
    have : oc = oc' := by simpa using a
    subst this; omega
  have hnm := h.noMembers hb (by omega)
  constructor
  · intro k o hk
    by_cases e1 : k = kb
    · omega
    · by_cases e2 : k = kc
      · omega
      · rw [up_other _ _ e1, up_other _ _ e2] at hk
        exact h.nonneg k o hk
  · intro k o hk hn
    by_cases e1 : k = kb
    · subst e1
      rw [up_same] at hk
      have : (ob.setClump idNone) = o := by simpa using hk
      subst this
      exact absurd rfl hn
    · by_cases e2 : k = kc
      · subst e2
        rw [up_other _ _ e1, up_same] at hk
        have hk' : (oc.setMembers ((ms.filter (· ≠ kb)))) = o := by simpa using hk
        subst hk'
        refine ⟨(oc.setMembers ((ms.filter (· ≠ kb)))), ms.filter (· ≠ kb), ?_, rfl, rfl, ?_⟩
        · show up _ _ _ oc.clumpId = _
          rw [hcc, up_other _ _ e1, up_same]
        · intro hk; exact absurd hcc.symm hk
      · rw [up_other _ _ e1, up_other _ _ e2] at hk
        obtain ⟨oc', ms', a, b, c, d⟩ := h.owner k o hk hn
        by_cases e3 : o.clumpId = kc
        · rw [e3, hc] at a
          have : oc = oc' := by simpa using a
          subst this
          rw [hm] at b
          have : ms = ms' := by simpa using b
          subst this
          refine ⟨(oc.setMembers ((ms.filter (· ≠ kb)))), ms.filter (· ≠ kb), ?_, rfl, ?_, ?_⟩
          · rw [e3, up_other _ _ (by omega), up_same]
          · exact c
          · intro hk2
            have := d hk2
            simp [this, e1]
        · have e4 : o.clumpId ≠ kb := by
            intro e4
            rw [e4, hb] at a
            have : ob = oc' := by simpa using a
            subst this
            omega
          exact ⟨oc', ms', by rw [up_other _ _ e4, up_other _ _ e3]; exact a, b, c, d⟩
  · intro c o ms1 k hk hm1 hkm
    by_cases e1 : c = kb
    · subst e1
      rw [up_same] at hk
      have hk' : (ob.setClump idNone) = o := by simpa using hk
      subst hk'
      have hm2 : ob.members = some ms1 := hm1
      rcases hnm with x | x
      · rw [x] at hm2; simp at hm2
      · rw [x] at hm2
        have : ms1 = [] := by simpa using hm2.symm
        subst this; simp at hkm
    · by_cases e2 : c = kc
      · subst e2
        rw [up_other _ _ e1, up_same] at hk
        have hk' : (oc.setMembers ((ms.filter (· ≠ kb)))) = o := by simpa using hk
        subst hk'
        have hm2 : ms.filter (· ≠ kb) = ms1 := by simpa using hm1
        subst hm2
        have hk2 : k ∈ ms ∧ k ≠ kb := by simpa using hkm
        obtain ⟨o', a, b, d⟩ := h.listed c oc ms k hc hm hk2.1
        exact ⟨o', by rw [up_other _ _ hk2.2, up_other _ _ d]; exact a, b, d⟩
      · rw [up_other _ _ e1, up_other _ _ e2] at hk
        obtain ⟨o', a, b, d⟩ := h.listed c o ms1 k hk hm1 hkm
        have n1 : k ≠ kb := by
          intro e; subst e; rw [hb] at a
          have : ob = o' := by simpa using a
          subst this; omega
        have n2 : k ≠ kc := by
          intro e; subst e; rw [hc] at a
          have : oc = o' := by simpa using a
          subst this; omega
        exact ⟨o', by rw [up_other _ _ n1, up_other _ _ n2]; exact a, b, d⟩
  · intro c o ms1 hk hm1
    by_cases e1 : c = kb
    · subst e1
      rw [up_same] at hk
      have hk' : (ob.setClump idNone) = o := by simpa using hk
      subst hk'
      exact h.nodup c ob ms1 hb hm1
    · by_cases e2 : c = kc
      · subst e2
        rw [up_other _ _ e1, up_same] at hk
        have hk' : (oc.setMembers ((ms.filter (· ≠ kb)))) = o := by simpa using hk
        subst hk'
        have hm2 : ms.filter (· ≠ kb) = ms1 := by simpa using hm1
        subst hm2
        exact (h.nodup c oc ms hc hm).filter _
      · rw [up_other _ _ e1, up_other _ _ e2] at hk
        exact h.nodup c o ms1 hk hm1

theorem consV_attach {V} (h : ConsV V) {kb kc : Int} {ob oc : BObj} {ms : List Int}
    (hb : V kb = some ob) (hob : ob.clumpId = -1) (hne : kb ≠ kc)
    (hc : V kc = some oc) (hm : oc.members = some ms) (hcc : oc.clumpId = -1 ∨ oc.clumpId = kc) :
    kb ∉ ms ∧
    ConsV (up (up V kb (some (ob.setClump kc))) kc
      (some ((oc.setMembers (ms ++ [kb])).setClump kc))) := by
  have h0c := h.nonneg kc oc hc
  have h0b := h.nonneg kb ob hb
  have hnm := h.noMembers hb (by omega)
  have hnot : kb ∉ ms := by
    intro hin
    obtain ⟨o, a, b, d⟩ := h.listed kc oc ms kb hc hm hin
    rw [hb] at a
    have : ob = o := by simpa using a
    subst this; omega
  refine ⟨hnot, ?_⟩
  constructor
  · intro k o hk
    by_cases e1 : k = kc
    · omega
    · by_cases e2 : k = kb
      · omega
      · rw [up_other _ _ e1, up_other _ _ e2] at hk
        exact h.nonneg k o hk
  · intro k o hk hn
    by_cases e1 : k = kc
    · subst e1
      rw [up_same] at hk
      have hk' : ((oc.setMembers (ms ++ [kb])).setClump k) = o := by simpa using hk
      subst hk'
      refine ⟨_, ms ++ [kb], up_same _ _ _, rfl, rfl, fun hx => absurd rfl hx⟩
    · by_cases e2 : k = kb
      · subst e2
        rw [up_other _ _ e1, up_same] at hk
        have hk' : (ob.setClump kc) = o := by simpa using hk
        subst hk'
        exact ⟨_, ms ++ [k], up_same _ _ _, rfl, rfl, fun _ => by simp⟩
      · rw [up_other _ _ e1, up_other _ _ e2] at hk
        obtain ⟨oc', ms', a, b, c, d⟩ := h.owner k o hk hn
        by_cases e3 : o.clumpId = kc
        · rw [e3, hc] at a
          have : oc = oc' := by simpa using a
          subst this
          rw [hm] at b
          have : ms = ms' := by simpa using b
          subst this
          refine ⟨_, ms ++ [kb], by rw [e3]; exact up_same _ _ _, rfl, e3.symm, ?_⟩
          intro hk2
          have := d hk2
          simp [this]
        · have e4 : o.clumpId ≠ kb := by
            intro e4
            rw [e4, hb] at a
            have : ob = oc' := by simpa using a
            subst this
            omega
          exact ⟨oc', ms', by rw [up_other _ _ e3, up_other _ _ e4]; exact a, b, c, d⟩
  · intro c o ms1 k hk hm1 hkm
    by_cases e1 : c = kc
    · subst e1
      rw [up_same] at hk
      have hk' : ((oc.setMembers (ms ++ [kb])).setClump c) = o := by simpa using hk
      subst hk'
      have hm2 : ms ++ [kb] = ms1 := by simpa using hm1
      subst hm2
      by_cases e : k = kb
      · subst e
        exact ⟨_, by rw [up_other _ _ hne]; exact up_same _ _ _, rfl, hne⟩
      · have hk2 : k ∈ ms := by simpa [e] using hkm
        obtain ⟨o', a, b, d⟩ := h.listed c oc ms k hc hm hk2
        exact ⟨o', by rw [up_other _ _ d, up_other _ _ e]; exact a, b, d⟩
    · by_cases e2 : c = kb
      · subst e2
        rw [up_other _ _ e1, up_same] at hk
        have hk' : (ob.setClump kc) = o := by simpa using hk
        subst hk'
        have hm2 : ob.members = some ms1 := hm1
        rcases hnm with x | x
        · rw [x] at hm2; simp at hm2
        · rw [x] at hm2
          have : ms1 = [] := by simpa using hm2.symm
          subst this; simp at hkm
      · rw [up_other _ _ e1, up_other _ _ e2] at hk
        obtain ⟨o', a, b, d⟩ := h.listed c o ms1 k hk hm1 hkm
        have h0 := h.nonneg c o hk
        have n1 : k ≠ kb := by
          intro e; subst e; rw [hb] at a
          have : ob = o' := by simpa using a
          subst this; omega
        have n2 : k ≠ kc := by
          intro e; subst e; rw [hc] at a
          have : oc = o' := by simpa using a
          subst this; omega
        exact ⟨o', by rw [up_other _ _ n2, up_other _ _ n1]; exact a, b, d⟩
  · intro c o ms1 hk hm1
    by_cases e1 : c = kc
    · subst e1
      rw [up_same] at hk
      have hk' : ((oc.setMembers (ms ++ [kb])).setClump c) = o := by simpa using hk
      subst hk'
      have hm2 : ms ++ [kb] = ms1 := by simpa using hm1
      subst hm2
      have := h.nodup c oc ms hc hm
      rw [List.nodup_append]
      refine ⟨this, by simp, ?_⟩
      intro a ha b hb' e
      have : b = kb := by simpa using hb'
      subst this; subst e; exact hnot ha
    · by_cases e2 : c = kb
      · subst e2
        rw [up_other _ _ e1, up_same] at hk
        have hk' : (ob.setClump kc) = o := by simpa using hk
        subst hk'
        exact h.nodup c ob ms1 hb hm1
      · rw [up_other _ _ e1, up_other _ _ e2] at hk
        exact h.nodup c o ms1 hk hm1

/-- removing a body that owns nothing and is owned by nobody else -/
theorem consV_drop {V} (h : ConsV V) {k : Int} {o : BObj} (hk : V k = some o)
    (hown : o.clumpId = -1 ∨ o.clumpId = k ∧ o.members = some []) : ConsV (up V k none) := by
  have h0 := h.nonneg k o hk
  have nobody : ∀ j oj, V j = some oj → j ≠ k → oj.clumpId ≠ k := by
    intro j oj hj hne e
    obtain ⟨oc, ms, a, b, c, d⟩ := h.owner j oj hj (by omega)
    rw [e, hk] at a
    have : o = oc := by simpa using a
    subst this
    rcases hown with x | ⟨x, y⟩
    · omega
    · rw [y] at b
      have : ms = [] := by simpa using b.symm
      subst this
      have := d (by omega)
      simp at this
  constructor
  · intro j oj hj
    by_cases e : j = k
    · subst e; rw [up_same] at hj; simp at hj
    · rw [up_other _ _ e] at hj; exact h.nonneg j oj hj
  · intro j oj hj hn
    by_cases e : j = k
    · subst e; rw [up_same] at hj; simp at hj
    · rw [up_other _ _ e] at hj
      obtain ⟨oc, ms, a, b, c, d⟩ := h.owner j oj hj hn
      exact ⟨oc, ms, by rw [up_other _ _ (nobody j oj hj e)]; exact a, b, c, d⟩
  · intro c oc ms j hc hm hj
    by_cases e : c = k
    · subst e; rw [up_same] at hc; simp at hc
    · rw [up_other _ _ e] at hc
      obtain ⟨oj, a, b, d⟩ := h.listed c oc ms j hc hm hj
      have : j ≠ k := by
        intro e2; subst e2; rw [hk] at a
        have : o = oj := by simpa using a
        subst this
        have := h.nonneg c oc hc
        omega
      exact ⟨oj, by rw [up_other _ _ this]; exact a, b, d⟩
  · intro c oc ms hc hm
    by_cases e : c = k
    · subst e; rw [up_same] at hc; simp at hc
    · rw [up_other _ _ e] at hc; exact h.nodup c oc ms hc hm

/-- a new standalone body -/
theorem consV_insert {V} (h : ConsV V) {k : Int} {o : BObj} (hk : V k = none) (h0 : 0 ≤ k)
    (ho : o.clumpId = -1) (hm : o.members = none ∨ o.members = some []) : ConsV (up V k (some o)) := by
  constructor
  · intro j oj hj
    by_cases e : j = k
    · omega
    · rw [up_other _ _ e] at hj; exact h.nonneg j oj hj
  · intro j oj hj hn
    by_cases e : j = k
    · subst e; rw [up_same] at hj
      have : o = oj := by simpa using hj
      subst this; omega
    · rw [up_other _ _ e] at hj
      obtain ⟨oc, ms, a, b, c, d⟩ := h.owner j oj hj hn
      have : oj.clumpId ≠ k := by intro e2; rw [e2, hk] at a; simp at a
      exact ⟨oc, ms, by rw [up_other _ _ this]; exact a, b, c, d⟩
  · intro c oc ms j hc hm2 hj
    by_cases e : c = k
    · subst e; rw [up_same] at hc
      have : o = oc := by simpa using hc
      subst this
      rcases hm with x | x <;> rw [x] at hm2
      · simp at hm2
      · have : ms = [] := by simpa using hm2.symm
        subst this; simp at hj
    · rw [up_other _ _ e] at hc
      obtain ⟨oj, a, b, d⟩ := h.listed c oc ms j hc hm2 hj
      have : j ≠ k := by intro e2; subst e2; rw [hk] at a; simp at a
      exact ⟨oj, by rw [up_other _ _ this]; exact a, b, d⟩
  · intro c oc ms hc hm2
    by_cases e : c = k
    · subst e; rw [up_same] at hc
      have : o = oc := by simpa using hc
      subst this
      rcases hm with x | x <;> rw [x] at hm2
      · simp at hm2
      · have : ms = [] := by simpa using hm2.symm
        subst this; simp
    · rw [up_other _ _ e] at hc; exact h.nodup c oc ms hc hm2

/-- the members of clump `c` are freed and the clump removed -/
theorem consV_dissolve {V} (h : ConsV V) {c : Int} {oc : BObj} {ms : List Int}
    (hc : V c = some oc) (hcc : oc.clumpId = c) (hm : oc.members = some ms) :
    ConsV (fun j => if j = c then none
      else if j ∈ ms then (V j).map (fun o => (o.setClump idNone)) else V j) := by
  have h0 := h.nonneg c oc hc
  have key : ∀ j o, V j = some o → j ≠ c → j ∉ ms → o.clumpId ≠ c := by
    intro j o hj hne hnm e
    obtain ⟨oc', ms', a, b, d, f⟩ := h.owner j o hj (by omega)
    rw [e, hc] at a
    have : oc = oc' := by simpa using a
    subst this
    rw [hm] at b
    have : ms = ms' := by simpa using b
    subst this
    exact hnm (f (by omega))
  have own : ∀ j o, V j = some o → j ∈ ms → o.clumpId = c ∧ j ≠ c := by
    intro j o hj hin
    obtain ⟨o', a, b, d⟩ := h.listed c oc ms j hc hm hin
    rw [hj] at a
    have : o = o' := by simpa using a
    subst this; exact ⟨b, d⟩
  constructor
  · intro j o hj
    by_cases e1 : j = c
    · omega
    · simp only [if_neg e1] at hj
      by_cases e2 : j ∈ ms
      · simp only [if_pos e2] at hj
        cases hv : V j with
        | none => rw [hv] at hj; simp at hj
        | some o' => exact h.nonneg j o' hv
      · simp only [if_neg e2] at hj; exact h.nonneg j o hj
  · intro j o hj hn
    by_cases e1 : j = c
    · simp [e1] at hj
    · simp only [if_neg e1] at hj
      by_cases e2 : j ∈ ms
      · simp only [if_pos e2] at hj
        cases hv : V j with
        | none => rw [hv] at hj; simp at hj
        | some o' =>
          rw [hv] at hj
          have : ((o').setClump idNone) = o := by simpa using hj
          subst this
          exact absurd rfl hn
      · simp only [if_neg e2] at hj
        obtain ⟨oc', ms', a, b, d, f⟩ := h.owner j o hj hn
        have n1 := key j o hj e1 e2
        have n2 : o.clumpId ∉ ms := by
          intro hin
          have := own _ _ a hin
          omega
        exact ⟨oc', ms', by simp only [if_neg n1, if_neg n2]; exact a, b, d, f⟩
  · intro c' o ms' k hk hm' hkm
    by_cases e1 : c' = c
    · simp [e1] at hk
    · simp only [if_neg e1] at hk
      by_cases e2 : c' ∈ ms
      · exfalso
        simp only [if_pos e2] at hk
        cases hv : V c' with
        | none => rw [hv] at hk; simp at hk
        | some o' =>
          rw [hv] at hk
          have : ((o').setClump idNone) = o := by simpa using hk
          subst this
          have hm2 : o'.members = some ms' := hm'
          have ow := own c' o' hv e2
          rcases h.noMembers hv (by omega) with x | x <;> rw [x] at hm2
          · simp at hm2
          · have : ms' = [] := by simpa using hm2.symm
            subst this; simp at hkm
      · simp only [if_neg e2] at hk
        obtain ⟨o', a, b, d⟩ := h.listed c' o ms' k hk hm' hkm
        have n1 : k ≠ c := by
          intro e; subst e; rw [hc] at a
          have : oc = o' := by simpa using a
          subst this; omega
        have n2 : k ∉ ms := by
          intro hin
          have := own _ _ a hin
          omega
        exact ⟨o', by simp only [if_neg n1, if_neg n2]; exact a, b, d⟩
  · intro c' o ms' hk hm'
    by_cases e1 : c' = c
    · simp [e1] at hk
    · simp only [if_neg e1] at hk
      by_cases e2 : c' ∈ ms
      · simp only [if_pos e2] at hk
        cases hv : V c' with
        | none => rw [hv] at hk; simp at hk
        | some o' =>
          rw [hv] at hk
          have : ((o').setClump idNone) = o := by simpa using hk
          subst this
          exact h.nodup c' o' ms' hv hm'
      · simp only [if_neg e2] at hk; exact h.nodup c' o ms' hk hm'

end Verif.Bodies
