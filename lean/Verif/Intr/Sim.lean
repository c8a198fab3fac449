import Verif.Intr.Bulk
import Verif.Intr.Spec
/-!
# Simulation between the interaction container and its specification
-/
namespace Verif.Intr
open Verif

/-! ### Simulation relation (proof device) -/

def toObj (i : Intr) : Obj := ⟨i.id1, i.id2, i.geom, i.phys⟩

structure Rel (s : St) (sp : Spec) : Prop where
  wf : WF s
  live : ∀ c, slot s c ≠ some none
  n : nb s = sp.n
  objs : s.heap.map toObj = sp.objs
  tbl : ∀ x y h, sp.tbl x y = some h ↔ h ∈ s.lin ∧ ∃ i, s.heap[h]? = some i ∧ Joins i x y

theorem Rel.get {s : St} {sp : Spec} (r : Rel s sp) (h : Nat) : sp.objs[h]? = (s.heap[h]?).map toObj := by
  rw [← r.objs, List.getElem?_map]

theorem Rel.tbl_none {s : St} {sp : Spec} (r : Rel s sp) {x y : Int}
    (h : ∀ h, h ∈ s.lin → ∀ i, s.heap[h]? = some i → ¬ Joins i x y) : sp.tbl x y = none := by
  cases ht : sp.tbl x y with
  | none => rfl
  | some k =>
    obtain ⟨h1, i, h2, h3⟩ := (r.tbl x y k).mp ht
    exact absurd h3 (h k h1 i h2)

theorem joins_comm {i : Intr} {x y : Int} : Joins i x y ↔ Joins i y x := by
  unfold Joins; omega

theorem joins_samePair {i : Intr} {x y : Int} : Joins i x y ↔ SamePair i.id1 i.id2 x y := Iff.rfl

theorem map_toObj_congr {l l' : List Intr}
    (h : ∀ x : Nat, (l'[x]?).map Intr.face = (l[x]?).map Intr.face) : l'.map toObj = l.map toObj := by
  apply List.ext_getElem?
  intro x
  rw [List.getElem?_map, List.getElem?_map]
  have := congrArg (Option.map (fun f : Int × Int × Bool × Bool × (Int × Int × Int) => (⟨f.1, f.2.1, f.2.2.1, f.2.2.2.1⟩ : Obj))) (h x)
  rw [Option.map_map, Option.map_map] at this
  exact this

theorem exec_sim {s : St} {sp : Spec} (r : Rel s sp) (op : Op) (hl : sp.legal op) :
    ∃ s' o, exec s op = .ok (s', o) ∧ sp.allows op o ∧ Rel s' (sp.next op) := by
  have w := r.wf
  cases op with
  | newBody =>
    refine ⟨_, _, rfl, rfl, ⟨WF_append w, ?_, ?_, r.objs, r.tbl⟩⟩
    · intro c; rw [slot_append]; split
      · simp
      · exact r.live c
    · rw [nb_append, r.n]; simp [Spec.next]
  | newObj x y junk =>
    refine ⟨_, _, rfl, ?_, ⟨WF_alloc w x y junk, r.live, r.n, ?_, ?_⟩⟩
    · simp [Spec.allows, alloc, ← r.objs]
    · simp [Spec.next, alloc, r.objs, toObj]
    · intro u v h
      show sp.tbl u v = some h ↔ _
      rw [r.tbl]
      constructor
      · rintro ⟨h1, i, h2, h3⟩
        refine ⟨h1, i, ?_, h3⟩
        have := (List.getElem?_eq_some_iff.mp h2).1
        simp only [alloc]; rw [List.getElem?_append_left this]; exact h2
      · rintro ⟨h1, i, h2, h3⟩
        obtain ⟨j, hj⟩ := w.mem_heap h1
        have := (List.getElem?_eq_some_iff.mp hj).1
        simp only [alloc] at h2; rw [List.getElem?_append_left this] at h2
        exact ⟨h1, i, h2, h3⟩
  | fill h g p =>
    simp only [Spec.legal] at hl
    have hlt : h < s.heap.length := by rw [← r.objs] at hl; simpa using hl
    have hi := List.getElem?_eq_getElem hlt
    generalize s.heap[h] = i at hi
    refine ⟨{ s with heap := s.heap.set h { i with geom := g, phys := p } }, .unit, ?_, rfl,
      ⟨WF_setReal w hi g p, r.live, ?_, ?_, ?_⟩⟩
    · simp [exec, hi]
    · rw [show nb { s with heap := s.heap.set h { i with geom := g, phys := p } } = nb s from rfl, r.n]
      simp only [Spec.next]; split <;> rfl
    · simp only [Spec.next, r.get, hi, Option.map_some, List.map_set, r.objs]
      rfl
    · intro u v k
      have : (sp.next (.fill h g p)).tbl = sp.tbl := by simp only [Spec.next]; split <;> rfl
      rw [this, r.tbl]
      simp only [List.getElem?_set]
      by_cases hk : h = k
      · subst hk
        rw [if_pos rfl, if_pos hlt, hi]
        constructor
        · rintro ⟨h1, i', h2, h3⟩; cases h2; exact ⟨h1, _, rfl, h3⟩
        · rintro ⟨h1, i', h2, h3⟩; cases h2; exact ⟨h1, _, rfl, h3⟩
      · rw [if_neg hk]
  | insert h =>
    obtain ⟨o, ho, hne, ha0, han, hb0, hbn⟩ := hl
    have ho' := ho
    rw [r.get] at ho'
    cases hi : s.heap[h]? with
    | none => rw [hi] at ho'; cases ho'
    | some i =>
      rw [hi] at ho'; simp at ho'
      have e1 : i.id1 = o.a := by rw [← ho']; rfl
      have e2 : i.id2 = o.b := by rw [← ho']; rfl
      have hlo : 0 ≤ i.lo ∧ i.lo < nb s := by unfold Intr.lo; rw [r.n]; split <;> omega
      have hhi : 0 ≤ i.hi ∧ i.hi < nb s := by unfold Intr.hi; rw [r.n]; split <;> omega
      have hne' : i.id1 ≠ i.id2 := by omega
      have hlt := Intr.lo_lt_hi hne'
      obtain ⟨b1, hb1⟩ := slot_of_lt hlo.1 hlo.2
      obtain ⟨b2, hb2⟩ := slot_of_lt hhi.1 hhi.2
      cases b1 with
      | none => exact absurd hb1 (r.live _)
      | some m1 =>
      cases b2 with
      | none => exact absurd hb2 (r.live _)
      | some m2 =>
      have hjl : ∀ j : Intr, Joins j i.lo i.hi ↔ Joins j o.a o.b := by
        intro j; unfold Joins Intr.lo Intr.hi; rw [e1, e2]; split <;> omega
      have htbl : ∀ k, sp.tbl o.a o.b = some k ↔ m1.get i.hi = some k := by
        intro k
        rw [r.tbl, map_iff w hlt hb1]
        constructor <;> rintro ⟨q1, j, q2, q3⟩
        · exact ⟨q1, j, q2, (hjl j).mpr q3⟩
        · exact ⟨q1, j, q2, (hjl j).mp q3⟩
      cases hg : m1.get i.hi with
      | some k =>
        have hts : sp.tbl o.a o.b = some k := (htbl k).mpr hg
        refine ⟨s, .flag false, ?_, ⟨o, ho, by rw [hts]; rfl⟩, ?_⟩
        · simp only [exec, insert_present hi hb1 hb2 (by rw [hg]; rfl)]
        · have : sp.next (.insert h) = sp := by simp [Spec.next, ho, hts]
          rw [this]; exact r
      | none =>
        have htn : sp.tbl o.a o.b = none := by
          cases hq : sp.tbl o.a o.b with
          | none => rfl
          | some k => rw [htbl, hg] at hq; cases hq
        obtain ⟨s', es, w', hlin, hnl, hheap, _, hnb, hsl⟩ := insert_absent w hi hne' hb1 hb2 hg
        have hnext : sp.next (.insert h) = { sp with tbl := fun x y => if SamePair o.a o.b x y then some h else sp.tbl x y } := by
          simp [Spec.next, ho, htn]
        have hgetx : ∀ x : Nat, s'.heap[x]? = if h = x then some { i with linIx := (s.lin.length : Int) } else s.heap[x]? := by
          intro x
          have hhl := (List.getElem?_eq_some_iff.mp hi).1
          rw [hheap, List.getElem?_set]
          by_cases hx : h = x
          · subst hx; simp [hhl]
          · simp [hx]
        refine ⟨s', .flag true, by simp only [exec, es], ⟨o, ho, by rw [htn]; rfl⟩, ?_⟩
        rw [hnext]
        refine ⟨w', ?_, hnb.trans r.n, ?_, ?_⟩
        · intro c; rw [hsl]; split
          · simp
          · split
            · simp
            · exact r.live c
        · show s'.heap.map toObj = sp.objs
          rw [hheap, List.map_set, r.objs]
          have hhl : h < sp.objs.length := (List.getElem?_eq_some_iff.mp ho).1
          have : toObj { i with linIx := (s.lin.length : Int) } = sp.objs[h] := by
            rw [(List.getElem?_eq_some_iff.mp ho).2, ← ho']; rfl
          rw [this]; simp
        · intro x y k
          show (if SamePair o.a o.b x y then some h else sp.tbl x y) = some k ↔ _
          by_cases hsp : SamePair o.a o.b x y
          · rw [if_pos hsp]
            constructor
            · intro e; cases e
              refine ⟨by rw [hlin]; simp, _, by rw [hgetx, if_pos rfl], ?_⟩
              unfold SamePair at hsp; unfold Joins; simp only; omega
            · rintro ⟨q1, j, q2, q3⟩
              rw [hlin] at q1
              rcases List.mem_append.mp q1 with q1 | q1
              · exfalso
                have hkh : h ≠ k := by intro e; subst e; exact hnl q1
                rw [hgetx, if_neg hkh] at q2
                have : sp.tbl o.a o.b = some k := (r.tbl _ _ _).mpr ⟨q1, j, q2, by
                  unfold SamePair at hsp; unfold Joins at *; omega⟩
                rw [htn] at this; cases this
              · rw [List.mem_singleton.mp q1]
          · rw [if_neg hsp, r.tbl]
            constructor
            · rintro ⟨q1, j, q2, q3⟩
              have hkh : h ≠ k := by intro e; subst e; exact hnl q1
              exact ⟨by rw [hlin]; exact List.mem_append_left _ q1, j, by rw [hgetx, if_neg hkh]; exact q2, q3⟩
            · rintro ⟨q1, j, q2, q3⟩
              rw [hlin] at q1
              rcases List.mem_append.mp q1 with q1 | q1
              · have hkh : h ≠ k := by intro e; subst e; exact hnl q1
                rw [hgetx, if_neg hkh] at q2
                exact ⟨q1, j, q2, q3⟩
              · exfalso
                have := List.mem_singleton.mp q1
                subst this
                rw [hgetx, if_pos rfl] at q2; cases q2
                apply hsp
                unfold Joins at q3; simp only at q3; unfold SamePair; omega
  | erase x y pos =>
    obtain ⟨hx, hy, hpos⟩ := hl
    cases ht : sp.tbl x y with
    | none =>
      have hp : pos < 0 := by rcases hpos with h | h
                              · exact h
                              · rw [ht] at h; cases h
      refine ⟨s, .flag false, ?_, by simp [Spec.allows, ht], ?_⟩
      · simp only [exec]
        rw [erase_absent hp hx hy]
        intro m hm
        cases hg : m.get (if x > y then x else y) with
        | none => rfl
        | some k =>
          exfalso
          by_cases he : (if x > y then y else x) = (if x > y then x else y)
          · rw [← he, map_self w hm] at hg; cases hg
          · have hlt : (if x > y then y else x) < (if x > y then x else y) := by
              revert he; split <;> omega
            obtain ⟨q1, j, q2, q3⟩ := (map_iff w hlt hm k).mp hg
            have : sp.tbl x y = some k := (r.tbl _ _ _).mpr ⟨q1, j, q2, by
              unfold Joins at *; revert q3; split <;> omega⟩
            rw [ht] at this; cases this
      · have : sp.next (.erase x y pos) = sp := by
          simp only [Spec.next]
          have : (fun u v => if SamePair x y u v then none else sp.tbl u v) = sp.tbl := by
            funext u v
            split
            · rename_i h
              unfold SamePair at h
              symm
              apply r.tbl_none
              intro k hk i hi hj
              have hq : sp.tbl x y = some k := (r.tbl _ _ _).mpr ⟨hk, i, hi, by unfold Joins at *; omega⟩
              rw [ht] at hq; cases hq
            · rfl
          rw [this]
        rw [this]; exact r
    | some k =>
      obtain ⟨q1, i, q2, q3⟩ := (r.tbl _ _ _).mp ht
      obtain ⟨pk, hpk⟩ := List.mem_iff_getElem?.mp q1
      have hpp := w.pair k q1 i q2
      have hlt := Intr.lo_lt_hi hpp.1
      obtain ⟨b1, hb1⟩ := slot_of_lt (s := s) hpp.2.1 (by omega)
      have hal : ∃ m, slot s i.lo = some (some m) := by
        cases b1 with
        | none => exact absurd hb1 (r.live _)
        | some m => exact ⟨m, hb1⟩
      obtain ⟨s', es, w', rm⟩ := erase_present w hpk q2 (x := x) (y := y) (linPos := pos)
        (by unfold Joins at q3; omega) (Or.inr hal)
      refine ⟨s', .flag true, by simp only [exec, es], by simp [Spec.allows, ht], ?_⟩
      refine ⟨w', ?_, rm.nb.trans r.n, ?_, ?_⟩
      · intro c hc; exact r.live c ((rm.null c).mp hc)
      · show s'.heap.map toObj = sp.objs
        rw [map_toObj_congr rm.face, r.objs]
      · intro u v h'
        show (if SamePair x y u v then none else sp.tbl u v) = some h' ↔ _
        by_cases hsp : SamePair x y u v
        · rw [if_pos hsp]
          constructor
          · intro e; cases e
          · rintro ⟨p1, j, p2, p3⟩
            exfalso
            obtain ⟨p1, p4⟩ := (rm.mem _).mp p1
            obtain ⟨j0, p5, a1, a2, _, _, _⟩ := face_some (rm.face h') p2
            apply p4
            apply w.uniq h' k p1 q1 j0 i p5 q2
            · rw [a1]; rw [joins_iff] at p3 q3; rw [p3.1, q3.1]; unfold SamePair at hsp; repeat' split <;> omega
            · rw [a2]; rw [joins_iff] at p3 q3; rw [p3.2, q3.2]; unfold SamePair at hsp; repeat' split <;> omega
        · rw [if_neg hsp, r.tbl]
          constructor
          · rintro ⟨p1, j, p2, p3⟩
            obtain ⟨j0, p5, a1, a2, a3, a4, _⟩ := face_some (rm.face h').symm p2
            refine ⟨(rm.mem _).mpr ⟨p1, ?_⟩, j0, p5, ?_⟩
            · intro e; subst e
              rw [q2] at p2; cases p2
              apply hsp; unfold Joins at *; unfold SamePair; omega
            · unfold Joins at *; omega
          · rintro ⟨p1, j, p2, p3⟩
            obtain ⟨j0, p5, a1, a2, a3, a4, _⟩ := face_some (rm.face h') p2
            exact ⟨((rm.mem _).mp p1).1, j0, p5, by unfold Joins at *; omega⟩
  | requestErase x y =>
    obtain ⟨hx, hy⟩ := hl
    obtain ⟨res, ef, hf⟩ := find_spec w hx hy r.live
    have hres : sp.tbl x y = res := by
      cases res with
      | none =>
        apply r.tbl_none
        intro k hk i hi hj
        have := (hf k).mpr ⟨hk, i, hi, hj⟩
        cases this
      | some k => exact (r.tbl _ _ _).mpr ((hf k).mp rfl)
    cases res with
    | none =>
      refine ⟨s, .unit, ?_, rfl, ?_⟩
      · simp [exec, Intr.requestErase, ef]
      · have : sp.next (.requestErase x y) = sp := by simp [Spec.next, hres]
        rw [this]; exact r
    | some k =>
      obtain ⟨q1, i, q2, q3⟩ := (hf k).mp rfl
      refine ⟨resetAt s k, .unit, ?_, rfl, ?_⟩
      · simp [exec, Intr.requestErase, ef]
      · obtain ⟨c1, c2, c3, c4⟩ := resetAt_bodies s k
        have hnext : sp.next (.requestErase x y) = { sp with objs := sp.objs.set k ⟨i.id1, i.id2, false, false⟩ } := by
          simp [Spec.next, hres, r.get, q2, toObj]
        rw [hnext]
        refine ⟨WF_resetAt w k, ?_, ?_, ?_, ?_⟩
        · intro c; rw [slot_congr c1]; exact r.live c
        · rw [nb_congr c1]; exact r.n
        · show (resetAt s k).heap.map toObj = sp.objs.set k _
          unfold resetAt; simp only [q2]
          rw [List.map_set, r.objs]; rfl
        · intro u v h'
          show sp.tbl u v = some h' ↔ _
          rw [r.tbl, c2]
          simp only [resetAt_get]
          by_cases hk : h' = k
          · subst hk
            rw [if_pos rfl, q2]
            constructor
            · rintro ⟨p1, j, p2, p3⟩; cases p2; exact ⟨p1, _, rfl, p3⟩
            · rintro ⟨p1, j, p2, p3⟩; cases p2; exact ⟨p1, _, rfl, p3⟩
          · rw [if_neg hk]
  | clear =>
    refine ⟨_, _, rfl, rfl, ⟨WF_clear, ?_, ?_, r.objs, ?_⟩⟩
    · intro c hc
      rw [slot_clear] at hc
      cases hs : slot s c with
      | none => rw [hs] at hc; cases hc
      | some o =>
        cases o with
        | none => exact r.live c hs
        | some m => rw [hs] at hc; simp at hc
    · rw [show nb (Intr.clear s) = nb s by simp [nb, Intr.clear], r.n]; rfl
    · intro x y h
      simp [Spec.next, Intr.clear]
  | find x y =>
    obtain ⟨hx, hy⟩ := hl
    obtain ⟨res, ef, hf⟩ := find_spec w hx hy r.live
    have hres : sp.tbl x y = res := by
      cases res with
      | none =>
        apply r.tbl_none
        intro k hk i hi hj
        have := (hf k).mpr ⟨hk, i, hi, hj⟩
        cases this
      | some k => exact (r.tbl _ _ _).mpr ((hf k).mp rfl)
    exact ⟨s, .ref res, by simp [exec, ef], by simp [Spec.allows, hres], r⟩
  | has x y =>
    obtain ⟨hx, hy⟩ := hl
    obtain ⟨res, ef, hf⟩ := found_spec w hx hy r.live
    refine ⟨s, .flag res, by simp [exec, ef], ?_, r⟩
    simp only [Spec.allows, Out.flag.injEq]
    cases ht : sp.tbl x y with
    | none =>
      cases res with
      | false => rfl
      | true =>
        obtain ⟨k, q1, i, q2, q3⟩ := hf.mp rfl
        have : sp.tbl x y = some k := (r.tbl _ _ _).mpr ⟨q1, i, q2, q3⟩
        rw [ht] at this; cases this
    | some k => rw [hf.mpr ⟨k, (r.tbl _ _ _).mp ht⟩]; rfl
  | list =>
    refine ⟨s, .items s.lin, rfl, ⟨s.lin, rfl, w.nodup, ?_⟩, r⟩
    intro h
    constructor
    · intro hm
      obtain ⟨i, hi⟩ := w.mem_heap hm
      exact ⟨i.id1, i.id2, (r.tbl _ _ _).mpr ⟨hm, i, hi, Or.inl ⟨rfl, rfl⟩⟩⟩
    · rintro ⟨x, y, hxy⟩
      exact ((r.tbl _ _ _).mp hxy).1

theorem execAll_sim : ∀ (ops : List Op) {s : St} {sp : Spec}, Rel s sp → sp.legalAll ops →
    ∃ s' os, execAll s ops = .ok (s', os) ∧ sp.allowsAll ops os ∧ WF s' := by
  intro ops
  induction ops with
  | nil => intro s sp r _; exact ⟨s, [], rfl, trivial, r.wf⟩
  | cons op ops ih =>
    intro s sp r hl
    obtain ⟨s1, o, e1, ha, r1⟩ := exec_sim r op hl.1
    obtain ⟨s2, os, e2, ha2, w2⟩ := ih r1 hl.2
    exact ⟨s2, o :: os, by simp [execAll, e1, e2], ⟨ha, ha2⟩, w2⟩

theorem rel_empty : Rel St.empty Spec.empty := by
  refine ⟨⟨?_, ?_, ?_, ?_, ?_⟩, ?_, rfl, rfl, ?_⟩ <;> simp [St.empty, Spec.empty, slot]

end Verif.Intr
