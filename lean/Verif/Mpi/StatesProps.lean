import Verif.Mpi.States
import Mathlib.Data.List.Basic
import Mathlib.Data.Int.Basic
import Mathlib.Order.Lattice
import Mathlib.Order.MinMax
import Mathlib.Tactic.SplitIfs
/-!
# C42, C43, C44: states, bounds and the box of a subdomain

Specification: `look` (the body with an id), `SameMotion` (what has to arrive), `Inside` (a box inside another one).
-/
namespace Verif.Mpi
open Verif

variable {R E : Type}

/-! ## Specification -/

/-- the body with id `i`, if there is one -/
def look (B : Bodies R E) (i : Int) : Option (Bdy R E) := if 0 ≤ i then (B[i.toNat]?).join else none

/-- position, velocity, angular velocity and orientation agree -/
def SameMotion (a b : St R) : Prop := a.pos = b.pos ∧ a.vel = b.vel ∧ a.angVel = b.angVel ∧ a.ori = b.ori

/-- the box with corners `a` lies in the one with corners `b` -/
def Inside [LE R] (a b : Vec R × Vec R) : Prop := ∀ i, b.1 i ≤ a.1 i ∧ a.2 i ≤ b.2 i

/-! ## Lemmas -/

/-- the state `d` with the motion of `s` -/
def merge (d s : St R) : St R := { d with pos := s.pos, vel := s.vel, angVel := s.angVel, ori := s.ori }

theorem merge_same (d s : St R) : SameMotion (merge d s) s ∧ (merge d s).angMom = d.angMom := ⟨⟨rfl, rfl, rfl, rfl⟩, rfl⟩

theorem deref_ok {B : Bodies R E} {i : Int} {b : Bdy R E} : deref B i = .ok b ↔ look B i = some b := by
  unfold deref look
  by_cases h : 0 ≤ i
  · rw [if_pos h, if_pos h]
    rcases B[i.toNat]? with _ | _ | b' <;> simp
  · rw [if_neg h, if_neg h]; simp

theorem deref_ub {B : Bodies R E} {i : Int} (h : look B i = none) : deref B i = .ub := by
  unfold deref; unfold look at h
  by_cases h0 : 0 ≤ i
  · rw [if_pos h0] at h ⊢
    rcases hb : B[i.toNat]? with _ | _ | b' <;> simp [hb] at h ⊢
  · rw [if_neg h0]

theorem look_store {B : Bodies R E} {i : Int} {b0 b : Bdy R E} (h : look B i = some b0) (j : Int) :
    look (store B i b) j = if j = i then some b else look B j := by
  unfold look at h
  by_cases h0 : 0 ≤ i
  · rw [if_pos h0] at h
    have hlt : i.toNat < B.length := by
      by_contra hc
      rw [List.getElem?_eq_none (by omega)] at h; simp at h
    unfold look store
    by_cases hj : j = i
    · subst hj; rw [if_pos h0, if_pos rfl]; simp [hlt]
    · rw [if_neg hj]
      by_cases hj0 : 0 ≤ j
      · rw [if_pos hj0, if_pos hj0, List.getElem?_set_ne (by omega)]
      · rw [if_neg hj0, if_neg hj0]
  · rw [if_neg h0] at h; cases h

theorem length_store (B : Bodies R E) (i : Int) (b : Bdy R E) : (store B i b).length = B.length := by simp [store]

theorem at_append (pre l post : List R) (k : Nat) (h : k < l.length) : at' (pre ++ l ++ post) (pre.length + k) = .ok (l[k]) := by
  unfold at'
  rw [List.append_assoc, List.getElem?_append_right (by omega), Nat.add_sub_cancel_left, List.getElem?_append_left h, List.getElem?_eq_getElem h]

theorem at_short {input : List R} {i : Nat} (h : input.length ≤ i) : at' input i = .ub := by
  unfold at'; rw [List.getElem?_eq_none h]

theorem at_lt {input : List R} {i : Nat} (h : i < input.length) : ∃ x, at' input i = .ok x := by
  unfold at'; rw [List.getElem?_eq_getElem h]; exact ⟨_, rfl⟩

theorem at_cases (input : List R) (i : Nat) : (∃ x, at' input i = .ok x) ∨ at' input i = .ub := by
  rcases lt_or_ge i input.length with h | h
  · exact .inl (at_lt h)
  · exact .inr (at_short h)

theorem vecAt_cases (input : List R) (i : Nat) : (∃ x, vecAt input i = .ok x) ∨ vecAt input i = .ub := by
  unfold vecAt
  rcases at_cases input i with ⟨a, h⟩ | h <;> rw [h] <;> simp
  rcases at_cases input (i + 1) with ⟨a, h⟩ | h <;> rw [h] <;> simp
  rcases at_cases input (i + 2) with ⟨a, h⟩ | h <;> rw [h] <;> simp

theorem vecAt_lt {input : List R} {i : Nat} (h : i + 2 < input.length) : ∃ x, vecAt input i = .ok x := by
  unfold vecAt
  obtain ⟨a, ha⟩ := at_lt (show i < input.length by omega)
  obtain ⟨b, hb⟩ := at_lt (show i + 1 < input.length by omega)
  obtain ⟨c, hc⟩ := at_lt h
  rw [ha, hb, hc]; exact ⟨_, rfl⟩

theorem vecAt_short {input : List R} {i : Nat} (h : input.length ≤ i + 2) : vecAt input i = .ub := by
  unfold vecAt
  rcases at_cases input i with ⟨a, h1⟩ | h1 <;> rw [h1] <;> simp
  rcases at_cases input (i + 1) with ⟨a, h2⟩ | h2 <;> rw [h2] <;> simp
  rw [at_short h]; rfl

theorem vecAt_append (pre l post : List R) (k : Nat) (h : k + 2 < l.length) :
    vecAt (pre ++ l ++ post) (pre.length + k) = .ok ![l[k], l[k + 1], l[k + 2]] := by
  unfold vecAt
  rw [at_append pre l post k (by omega), Nat.add_assoc, at_append pre l post (k + 1) (by omega), Nat.add_assoc, at_append pre l post (k + 2) h]
  rfl

theorem vec3_eta (v : Vec R) : ![v 0, v 1, v 2] = v := by
  funext i
  match i with
  | 0 => rfl
  | 1 => rfl
  | 2 => rfl

theorem decState_append (pre post : List R) (s d : St R) : decState (pre ++ encState s ++ post) pre.length d = .ok (merge d s) := by
  have e0 := vecAt_append pre (encState s) post 0 (by simp [encState])
  have e3 := vecAt_append pre (encState s) post 3 (by simp [encState])
  have e6 := vecAt_append pre (encState s) post 6 (by simp [encState])
  have a12 := at_append pre (encState s) post 12 (by simp [encState])
  have a9 := at_append pre (encState s) post 9 (by simp [encState])
  have a10 := at_append pre (encState s) post 10 (by simp [encState])
  have a11 := at_append pre (encState s) post 11 (by simp [encState])
  rw [Nat.add_zero] at e0
  unfold decState
  rw [e0, e3, e6, a12, a9, a10, a11]
  simp only [Res.bind_ok, encState, Qt.coeffs]
  simp only [List.getElem_cons_zero, List.getElem_cons_succ]
  unfold merge
  congr 1
  refine St.ext (vec3_eta _) (vec3_eta _) (vec3_eta _) rfl rfl

theorem decState_short {input : List R} {idx : Nat} (h : input.length ≤ idx + 12) (s : St R) : decState input idx s = .ub := by
  unfold decState
  rcases vecAt_cases input idx with ⟨a, h1⟩ | h1 <;> rw [h1] <;> simp
  rcases vecAt_cases input (idx + 3) with ⟨a, h1⟩ | h1 <;> rw [h1] <;> simp
  rcases vecAt_cases input (idx + 6) with ⟨a, h1⟩ | h1 <;> rw [h1] <;> simp
  rw [at_short h]; rfl

theorem decState_long {input : List R} {idx : Nat} (h : idx + 12 < input.length) (s : St R) : ∃ s', decState input idx s = .ok s' := by
  unfold decState
  obtain ⟨a, ha⟩ := vecAt_lt (show idx + 2 < input.length by omega)
  obtain ⟨b, hb⟩ := vecAt_lt (show idx + 3 + 2 < input.length by omega)
  obtain ⟨c, hc⟩ := vecAt_lt (show idx + 6 + 2 < input.length by omega)
  obtain ⟨w, hw⟩ := at_lt h
  obtain ⟨x, hx⟩ := at_lt (show idx + 9 < input.length by omega)
  obtain ⟨y, hy⟩ := at_lt (show idx + 10 < input.length by omega)
  obtain ⟨z, hz⟩ := at_lt (show idx + 11 < input.length by omega)
  rw [ha, hb, hc, hw, hx, hy, hz]; exact ⟨_, rfl⟩

theorem getStates_ok {B : Bodies R E} {ids : List Int} (h : ∀ i ∈ ids, ∃ b, look B i = some b) :
    ∃ vals, getStates B ids = .ok vals ∧ vals.length = 13 * ids.length := by
  induction ids with
  | nil => exact ⟨[], rfl, rfl⟩
  | cons i ids ih =>
    obtain ⟨b, hb⟩ := h i (by simp)
    obtain ⟨vals, h1, h2⟩ := ih fun j hj => h j (by simp [hj])
    refine ⟨encState b.st ++ vals, ?_, ?_⟩
    · unfold getStates; rw [deref_ok.mpr hb, h1]; rfl
    · simp [encState, h2]; omega

/-- the motion the sender has for `i` -/
def sentFor (B1 : Bodies R E) (i : Int) (b : Bdy R E) : Bdy R E :=
  match look B1 i with
  | some b1 => { b with st := merge b.st b1.st }
  | none => b

theorem sentFor_twice (B1 : Bodies R E) (i : Int) (b : Bdy R E) : sentFor B1 i (sentFor B1 i b) = sentFor B1 i b := by
  unfold sentFor; cases look B1 i <;> rfl

theorem setLoop_enc {B1 : Bodies R E} {ids : List Int} : ∀ {vals : List R} {pre post : List R} {k : Nat} {B : Bodies R E},
    getStates B1 ids = .ok vals → pre.length = k * 13 → (∀ i ∈ ids, ∃ b, look B i = some b) →
    ∃ B', setLoop (pre ++ vals ++ post) k ids B = .ok B' ∧ B'.length = B.length ∧
      ∀ i, look B' i = if i ∈ ids then (look B i).map (sentFor B1 i) else look B i := by
  induction ids with
  | nil => intro vals pre post k B _ _ _; exact ⟨B, rfl, rfl, fun i => by simp⟩
  | cons i ids ih =>
    intro vals pre post k B hg hk hB
    unfold getStates at hg
    cases hl : look B1 i with
    | none => rw [deref_ub hl] at hg; cases hg
    | some b1 =>
      rw [deref_ok.mpr hl] at hg
      simp only [Res.bind_ok] at hg
      cases hr : getStates B1 ids with
      | throws => rw [hr] at hg; cases hg
      | ub => rw [hr] at hg; cases hg
      | ok r =>
        rw [hr] at hg
        simp only [Res.bind_ok] at hg
        injection hg with hg
        obtain ⟨b, hb⟩ := hB i (by simp)
        unfold setLoop
        rw [deref_ok.mpr hb]
        have hin : pre ++ vals ++ post = pre ++ encState b1.st ++ (r ++ post) := by rw [← hg]; simp
        have hin' : pre ++ vals ++ post = (pre ++ encState b1.st) ++ r ++ post := by rw [← hg]; simp
        have hd : decState (pre ++ vals ++ post) (k * 13) b.st = .ok (merge b.st b1.st) := by rw [hin, ← hk]; exact decState_append _ _ _ _
        simp only [Res.bind_ok, hd]
        have hs := look_store (b := { b with st := merge b.st b1.st }) hb
        obtain ⟨B', h1, h2, h3⟩ := ih (vals := r) (pre := pre ++ encState b1.st) (post := post) (k := k + 1)
          (B := store B i { b with st := merge b.st b1.st }) hr (by simp [hk, encState]; omega) (fun j hj => by
            rw [hs]; split_ifs
            · exact ⟨_, rfl⟩
            · exact hB j (by simp [hj]))
        rw [hin']
        refine ⟨B', h1, h2.trans (length_store _ _ _), fun j => ?_⟩
        have hself : { b with st := merge b.st b1.st } = sentFor B1 i b := by unfold sentFor; rw [hl]
        rw [h3, hs, hself]
        by_cases hji : j = i
        · subst hji
          rw [if_pos rfl, if_pos (List.mem_cons_self), hb, Option.map_some, Option.map_some, sentFor_twice]
          split_ifs <;> rfl
        · rw [if_neg hji]
          by_cases hj : j ∈ ids
          · rw [if_pos hj, if_pos (List.mem_cons_of_mem _ hj)]
          · rw [if_neg hj, if_neg (by simp [hji, hj])]

theorem setLoop_short {input : List R} {ids : List Int} : ∀ {k : Nat} {B : Bodies R E}, (∀ i ∈ ids, ∃ b, look B i = some b) →
    input.length < (k + ids.length) * 13 → ids ≠ [] → setLoop input k ids B = .ub := by
  induction ids with
  | nil => intro k B _ _ h; exact absurd rfl h
  | cons i ids ih =>
    intro k B hB hlen _
    obtain ⟨b, hb⟩ := hB i (by simp)
    unfold setLoop
    rw [deref_ok.mpr hb]
    simp only [Res.bind_ok]
    rcases Nat.lt_or_ge (k * 13 + 12) input.length with h | h
    · obtain ⟨s', hs'⟩ := decState_long h b.st
      rw [hs']
      simp only [Res.bind_ok]
      refine ih (fun j hj => ?_) ?_ ?_
      · rw [look_store hb]; split_ifs
        · exact ⟨_, rfl⟩
        · exact hB j (by simp [hj])
      · simp at hlen ⊢; omega
      · rintro rfl; simp at hlen; omega
    · rw [decState_short h]; rfl

/-! ## C42 -/

/-- **C42, partial.** For all bodies `B1` of the sender and `B` of the receiver and every list of ids of bodies existing in both (with or
without repetitions): the message has 13 numbers per id, applying it (even with more numbers behind) is defined, gives exactly the
listed bodies the sender's position, velocity, angular velocity and orientation, changes nothing else of them and no other body.
Missing: messages of wrong length are not refused (`C42_violated_short`; numbers behind the expected ones are ignored). -/
theorem C42_roundtrip_partial (B1 B : Bodies R E) (ids : List Int) (h1 : ∀ i ∈ ids, ∃ b, look B1 i = some b) (h2 : ∀ i ∈ ids, ∃ b, look B i = some b)
    (post : List R) : ∃ vals B', getStates B1 ids = .ok vals ∧ vals.length = 13 * ids.length ∧ setStates ids (vals ++ post) B = .ok B' ∧
      B'.length = B.length ∧ (∀ i, i ∉ ids → look B' i = look B i) ∧
      ∀ i ∈ ids, ∃ b1 b b', look B1 i = some b1 ∧ look B i = some b ∧ look B' i = some b' ∧ SameMotion b'.st b1.st ∧
        b' = { b with st := { b.st with pos := b'.st.pos, vel := b'.st.vel, angVel := b'.st.angVel, ori := b'.st.ori } } := by
  obtain ⟨vals, hv, hl⟩ := getStates_ok h1
  obtain ⟨B', k1, k2, k3⟩ := setLoop_enc (pre := []) (post := post) (k := 0) hv rfl h2
  refine ⟨vals, B', hv, hl, k1, k2, fun i hi => by rw [k3, if_neg hi], fun i hi => ?_⟩
  obtain ⟨b1, hb1⟩ := h1 i hi
  obtain ⟨b, hb⟩ := h2 i hi
  refine ⟨b1, b, { b with st := merge b.st b1.st }, hb1, hb, ?_, ⟨rfl, rfl, rfl, rfl⟩, rfl⟩
  rw [k3, if_pos hi, hb]
  simp only [Option.map_some, sentFor, hb1]

/-- **C42 is false for short messages**: every message shorter than 13 numbers per listed body is read beyond its end, although the wrong
length has been noticed (and logged). -/
theorem C42_violated_short (B : Bodies R E) (ids : List Int) (h : ∀ i ∈ ids, ∃ b, look B i = some b) (input : List R)
    (hs : input.length < 13 * ids.length) : setStates ids input B = .ub := by
  refine setLoop_short h (by omega) ?_
  rintro rfl; simp at hs

/-- a body for the examples -/
def exBody (k : Nat) : Bdy Nat Unit :=
  { st := ⟨![k, k + 1, k + 2], ![k + 3, k + 4, k + 5], ![k + 6, k + 7, k + 8], ⟨k + 9, k + 10, k + 11, k + 12⟩, ![0, 0, 0]⟩
    bound := none, subdomain := 1, isSubdomain := false, bounded := true, rest := () }

/-- hypotheses of `C42_roundtrip_partial`: three containers entries, one erased, ids in any order and repeated -/
example : ∃ B' : Bodies Nat Unit, (∀ i ∈ [(2 : Int), 0, 2], ∃ b, look [some (exBody 0), none, some (exBody 50)] i = some b) ∧
    setStates [2, 0, 2] (encState (exBody 150).st ++ encState (exBody 100).st ++ encState (exBody 150).st) [some (exBody 0), none, some (exBody 50)] = .ok B' ∧
    (look B' 2).map (·.st.ori.w) = some 159 := by
  refine ⟨[some { exBody 0 with st := merge (exBody 0).st (exBody 100).st }, none, some { exBody 50 with st := merge (exBody 50).st (exBody 150).st }],
    fun i hi => ?_, ?_, rfl⟩
  · simp only [List.mem_cons, List.not_mem_nil, or_false] at hi
    rcases hi with rfl | rfl | rfl <;> exact ⟨_, rfl⟩
  · simp only [setStates, setLoop, deref, store, merge, exBody]
    rfl

/-- hypotheses of `C42_violated_short`: one body, an empty message -/
example : setStates [0] ([] : List Nat) [some (exBody 0)] = .ub :=
  C42_violated_short _ _ (fun i hi => by simp at hi; subst hi; exact ⟨_, rfl⟩) _ (by simp)

/-! ## C43 -/

/-- the six numbers sent for a bound -/
theorem encBound_length [Zero R] (b : Option (Bnd R)) : (encBound b).length = 6 := by unfold encBound; cases b <;> rfl

/-- the corners the sender sends -/
def sentCorners [Zero R] (b : Option (Bnd R)) : Vec R × Vec R :=
  match b with
  | some b => (b.min, b.max)
  | none => (fun _ => 0, fun _ => 0)

theorem encBound_corners [Zero R] (b : Option (Bnd R)) : encBound b =
    [(sentCorners b).1 0, (sentCorners b).1 1, (sentCorners b).1 2, (sentCorners b).2 0, (sentCorners b).2 1, (sentCorners b).2 2] := by
  unfold encBound sentCorners; cases b <;> rfl

theorem getStateBounds_ok [Zero R] {B : Bodies R E} {ids : List Int} (h : ∀ i ∈ ids, ∃ b, look B i = some b) :
    ∃ vals, getStateBounds B ids = .ok vals ∧ vals.length = 19 * ids.length := by
  induction ids with
  | nil => exact ⟨[], rfl, rfl⟩
  | cons i ids ih =>
    obtain ⟨b, hb⟩ := h i (by simp)
    obtain ⟨vals, h1, h2⟩ := ih fun j hj => h j (by simp [hj])
    refine ⟨encState b.st ++ encBound b.bound ++ vals, ?_, ?_⟩
    · unfold getStateBounds; rw [deref_ok.mpr hb, h1]; rfl
    · simp [encState, encBound_length, h2]; omega

/-- what the receiver makes of body `b` for the sender's body `i` -/
def sentBoundFor [Zero R] (B1 : Bodies R E) (i : Int) (b : Bdy R E) : Bdy R E :=
  match look B1 i with
  | some b1 => { b with st := merge b.st b1.st, bound := some ⟨(sentCorners b1.bound).1, (sentCorners b1.bound).2, (b.bound.map (·.extra)).getD none⟩ }
  | none => b

theorem sentBoundFor_twice [Zero R] (B1 : Bodies R E) (i : Int) (b : Bdy R E) : sentBoundFor B1 i (sentBoundFor B1 i b) = sentBoundFor B1 i b := by
  unfold sentBoundFor; cases look B1 i <;> rfl

theorem setBoundsLoop_enc [Zero R] {B1 : Bodies R E} {ids : List Int} : ∀ {vals : List R} {pre post : List R} {k : Nat} {B : Bodies R E},
    getStateBounds B1 ids = .ok vals → pre.length = k * 19 → (∀ i ∈ ids, ∃ b, look B i = some b) →
    ∃ B', setBoundsLoop (pre ++ vals ++ post) k ids B = .ok B' ∧ B'.length = B.length ∧
      ∀ i, look B' i = if i ∈ ids then (look B i).map (sentBoundFor B1 i) else look B i := by
  induction ids with
  | nil => intro vals pre post k B _ _ _; exact ⟨B, rfl, rfl, fun i => by simp⟩
  | cons i ids ih =>
    intro vals pre post k B hg hk hB
    unfold getStateBounds at hg
    cases hl : look B1 i with
    | none => rw [deref_ub hl] at hg; cases hg
    | some b1 =>
      rw [deref_ok.mpr hl] at hg
      simp only [Res.bind_ok] at hg
      cases hr : getStateBounds B1 ids with
      | throws => rw [hr] at hg; cases hg
      | ub => rw [hr] at hg; cases hg
      | ok r =>
        rw [hr] at hg
        simp only [Res.bind_ok] at hg
        injection hg with hg
        obtain ⟨b, hb⟩ := hB i (by simp)
        unfold setBoundsLoop
        rw [deref_ok.mpr hb]
        have hel : (encState b1.st).length = 13 := rfl
        have hin : pre ++ vals ++ post = pre ++ encState b1.st ++ (encBound b1.bound ++ r ++ post) := by rw [← hg]; simp
        have hin2 : pre ++ vals ++ post = (pre ++ encState b1.st) ++ encBound b1.bound ++ (r ++ post) := by rw [← hg]; simp
        have hin' : pre ++ vals ++ post = (pre ++ encState b1.st ++ encBound b1.bound) ++ r ++ post := by rw [← hg]; simp
        have hd : decState (pre ++ vals ++ post) (k * 19) b.st = .ok (merge b.st b1.st) := by rw [hin, ← hk]; exact decState_append _ _ _ _
        have hpl : (pre ++ encState b1.st).length = k * 19 + 13 := by simp [hk, hel]
        have hm1 : vecAt (pre ++ vals ++ post) (k * 19 + 13) = .ok (sentCorners b1.bound).1 := by
          have := vecAt_append (pre ++ encState b1.st) (encBound b1.bound) (r ++ post) 0 (by rw [encBound_length]; omega)
          rw [hin2, ← hpl]
          rw [Nat.add_zero] at this
          rw [this]
          simp only [encBound_corners, List.getElem_cons_zero, List.getElem_cons_succ, Nat.zero_add]
          rw [vec3_eta]
        have hm2 : vecAt (pre ++ vals ++ post) (k * 19 + 16) = .ok (sentCorners b1.bound).2 := by
          have := vecAt_append (pre ++ encState b1.st) (encBound b1.bound) (r ++ post) 3 (by rw [encBound_length]; omega)
          rw [hin2, show k * 19 + 16 = (pre ++ encState b1.st).length + 3 by rw [hpl]]
          rw [this]
          simp only [encBound_corners, List.getElem_cons_zero, List.getElem_cons_succ]
          rw [vec3_eta]
        simp only [Res.bind_ok, hd, hm1, hm2]
        have hself : { b with st := merge b.st b1.st, bound := some ⟨(sentCorners b1.bound).1, (sentCorners b1.bound).2, (b.bound.map (·.extra)).getD none⟩ } =
          sentBoundFor B1 i b := by unfold sentBoundFor; rw [hl]
        rw [hself]
        have hs := look_store (b := sentBoundFor B1 i b) hb
        obtain ⟨B', h1, h2, h3⟩ := ih (vals := r) (pre := pre ++ encState b1.st ++ encBound b1.bound) (post := post) (k := k + 1)
          (B := store B i (sentBoundFor B1 i b)) hr (by simp [hk, hel, encBound_length]; omega) (fun j hj => by
            rw [hs]; split_ifs
            · exact ⟨_, rfl⟩
            · exact hB j (by simp [hj]))
        rw [hin']
        refine ⟨B', h1, h2.trans (length_store _ _ _), fun j => ?_⟩
        rw [h3, hs]
        by_cases hji : j = i
        · subst hji
          rw [if_pos rfl, if_pos (List.mem_cons_self), hb, Option.map_some, Option.map_some, sentBoundFor_twice]
          split_ifs <;> rfl
        · rw [if_neg hji]
          by_cases hj : j ∈ ids
          · rw [if_pos hj, if_pos (List.mem_cons_of_mem _ hj)]
          · rw [if_neg hj, if_neg (by simp [hji, hj])]

/-- **C43, partial.** Sending states with bounds gives every listed body the sender's motion and, if it has a bound at the sender, the
corners of that bound; other bodies are untouched.  Missing: bodies without bound (`C43_violated`) and the other attributes of the bound,
which stay those of the receiver. -/
theorem C43_bounded_partial [Zero R] (B1 B : Bodies R E) (ids : List Int) (h1 : ∀ i ∈ ids, ∃ b, look B1 i = some b) (h2 : ∀ i ∈ ids, ∃ b, look B i = some b) :
    ∃ vals B', getStateBounds B1 ids = .ok vals ∧ vals.length = 19 * ids.length ∧ setStateBounds ids vals B = .ok B' ∧
      B'.length = B.length ∧ (∀ i, i ∉ ids → look B' i = look B i) ∧
      ∀ i ∈ ids, ∃ b1 b b' bd', look B1 i = some b1 ∧ look B i = some b ∧ look B' i = some b' ∧ SameMotion b'.st b1.st ∧
        b'.st.angMom = b.st.angMom ∧ b'.bound = some bd' ∧ (∀ bd1, b1.bound = some bd1 → bd'.min = bd1.min ∧ bd'.max = bd1.max) ∧
        (∀ bd, b.bound = some bd → bd'.extra = bd.extra) ∧ b'.subdomain = b.subdomain ∧ b'.isSubdomain = b.isSubdomain ∧
        b'.bounded = b.bounded ∧ b'.rest = b.rest := by
  obtain ⟨vals, hv, hl⟩ := getStateBounds_ok h1
  obtain ⟨B', k1, k2, k3⟩ := setBoundsLoop_enc (pre := []) (post := []) (k := 0) hv rfl h2
  rw [List.append_nil, List.nil_append] at k1
  refine ⟨vals, B', hv, hl, k1, k2, fun i hi => by rw [k3, if_neg hi], fun i hi => ?_⟩
  obtain ⟨b1, hb1⟩ := h1 i hi
  obtain ⟨b, hb⟩ := h2 i hi
  refine ⟨b1, b, sentBoundFor B1 i b, ⟨(sentCorners b1.bound).1, (sentCorners b1.bound).2, (b.bound.map (·.extra)).getD none⟩, hb1, hb, ?_, ?_⟩
  · rw [k3, if_pos hi, hb]; rfl
  · unfold sentBoundFor
    rw [hb1]
    refine ⟨⟨rfl, rfl, rfl, rfl⟩, rfl, rfl, fun bd1 e => by rw [e]; exact ⟨rfl, rfl⟩, fun bd e => by rw [e]; rfl, rfl, rfl, rfl, rfl⟩

/-- **C43 is false** for a body without bound: wherever such a body is listed, the receiver gets a bound reduced to the origin — in every
scene. -/
theorem C43_violated [Zero R] (B1 B : Bodies R E) (ids : List Int) (h1 : ∀ i ∈ ids, ∃ b, look B1 i = some b) (h2 : ∀ i ∈ ids, ∃ b, look B i = some b)
    (i : Int) (hi : i ∈ ids) (b1 : Bdy R E) (hb1 : look B1 i = some b1) (hn : b1.bound = none) :
    ∃ vals B' b' bd', getStateBounds B1 ids = .ok vals ∧ setStateBounds ids vals B = .ok B' ∧ look B' i = some b' ∧ b'.bound = some bd' ∧
      bd'.min = (fun _ => 0) ∧ bd'.max = fun _ => 0 := by
  obtain ⟨vals, hv, -⟩ := getStateBounds_ok h1
  obtain ⟨B', k1, -, k3⟩ := setBoundsLoop_enc (pre := []) (post := []) (k := 0) hv rfl h2
  rw [List.append_nil, List.nil_append] at k1
  obtain ⟨b, hb⟩ := h2 i hi
  refine ⟨vals, B', sentBoundFor B1 i b, ⟨fun _ => 0, fun _ => 0, (b.bound.map (·.extra)).getD none⟩, hv, k1, ?_, ?_, rfl, rfl⟩
  · rw [k3, if_pos hi, hb]; rfl
  · unfold sentBoundFor; rw [hb1]; simp only [hn, sentCorners]

/-- hypotheses of `C43_violated` (and of `C43_bounded_partial`): one body with and one without bound -/
example : ∃ (B1 : Bodies Nat Unit), (∀ i ∈ [(0 : Int), 1], ∃ b, look B1 i = some b) ∧ (look B1 0).bind (·.bound) = none ∧
    ((look B1 1).bind (·.bound)).isSome := by
  refine ⟨[some (exBody 0), some { exBody 1 with bound := some ⟨![1, 1, 1], ![2, 2, 2], none⟩ }], fun i hi => ?_, rfl, rfl⟩
  simp only [List.mem_cons, List.not_mem_nil, or_false] at hi
  rcases hi with rfl | rfl <;> exact ⟨_, rfl⟩

/-! ## C44 -/

/-- box `bd` belongs to an existing, bounded member -/
def MemberBox (B : Bodies R E) (ids : List Int) (bd : Bnd R) : Prop := ∃ i ∈ ids, ∃ b, look B i = some b ∧ b.bound = some bd

theorem byId_ok {B : Bodies R E} {i : Int} (h : 0 ≤ i ∧ i < B.length) : byId B i = .ok (look B i) := by
  have hl : i.toNat < B.length := by omega
  unfold byId look
  rw [if_pos h.1, if_pos h.1, List.getElem?_eq_getElem hl]
  rfl

theorem minMaxLoop_spec [LinearOrder R] {B : Bodies R E} {ids : List Int} : ∀ {m : Vec R × Vec R}, (∀ i ∈ ids, 0 ≤ i ∧ i < B.length) →
    ∃ m', minMaxLoop B ids m = .ok m' ∧ ∀ c : Vec R × Vec R, Inside m' c ↔ Inside m c ∧ ∀ bd, MemberBox B ids bd → Inside (bd.min, bd.max) c := by
  induction ids with
  | nil => intro m _; exact ⟨m, rfl, fun c => ⟨fun h => ⟨h, fun bd ⟨_, hi, _⟩ => by cases hi⟩, fun h => h.1⟩⟩
  | cons i ids ih =>
    intro m hr
    unfold minMaxLoop
    rw [byId_ok (hr i (by simp))]
    simp only [Res.bind_ok]
    have hr' : ∀ j ∈ ids, 0 ≤ j ∧ j < B.length := fun j hj => hr j (by simp [hj])
    have skip : (∀ b bd, look B i = some b → b.bound ≠ some bd) → ∀ bd, MemberBox B (i :: ids) bd ↔ MemberBox B ids bd := by
      intro hn bd
      constructor
      · rintro ⟨j, hj, b, h1, h2⟩
        rcases List.mem_cons.mp hj with e | hj
        · subst e; exact absurd h2 (hn b bd h1)
        · exact ⟨j, hj, b, h1, h2⟩
      · rintro ⟨j, hj, h⟩; exact ⟨j, List.mem_cons_of_mem _ hj, h⟩
    cases hl : look B i with
    | none =>
      obtain ⟨m', h1, h2⟩ := ih (m := m) hr'
      refine ⟨m', h1, fun c => ?_⟩
      rw [h2]; simp only [skip (fun b bd h => by rw [hl] at h; cases h)]
    | some b =>
      dsimp only
      cases hbd : b.bound with
      | none =>
        obtain ⟨m', h1, h2⟩ := ih (m := m) hr'
        refine ⟨m', h1, fun c => ?_⟩
        rw [h2]; simp only [skip (fun b' bd h => by rw [hl] at h; injection h with h; subst h; rw [hbd]; simp)]
      | some bd =>
        obtain ⟨m', h1, h2⟩ := ih (m := (cwiseMin m.1 bd.min, cwiseMax m.2 bd.max)) hr'
        refine ⟨m', h1, fun c => ?_⟩
        rw [h2]
        have hI : Inside (cwiseMin m.1 bd.min, cwiseMax m.2 bd.max) c ↔ Inside m c ∧ Inside (bd.min, bd.max) c := by
          unfold Inside cwiseMin cwiseMax
          simp only [le_min_iff, max_le_iff]
          constructor
          · intro h; exact ⟨fun a => ⟨(h a).1.1, (h a).2.1⟩, fun a => ⟨(h a).1.2, (h a).2.2⟩⟩
          · rintro ⟨p, q⟩ a; exact ⟨⟨(p a).1, (q a).1⟩, (p a).2, (q a).2⟩
        rw [hI]
        constructor
        · rintro ⟨⟨p, q⟩, r⟩
          refine ⟨p, ?_⟩
          rintro bd' ⟨j, hj, b', h3, h4⟩
          rcases List.mem_cons.mp hj with e | hj
          · subst e; rw [hl] at h3; injection h3 with h3; subst h3; rw [hbd] at h4; injection h4 with h4; subst h4; exact q
          · exact r bd' ⟨j, hj, b', h3, h4⟩
        · rintro ⟨p, q⟩
          exact ⟨⟨p, q bd ⟨i, by simp, b, hl, hbd⟩⟩, fun bd' ⟨j, hj, h⟩ => q bd' ⟨j, List.mem_cons_of_mem _ hj, h⟩⟩

/-- **C44, partial.** For every list of members (ids within the container, the first one existing): the box of the subdomain is defined,
contains the box of every bounded member, and lies in every box that contains these; hence bodies without box do not influence it and
without any bounded member it is the empty box from `+∞` to `-∞`.  `R` is any linear order with ends, as are the machine's numbers with
the infinities and without NaN.  Missing: an erased first member (`C44_violated`). -/
theorem C44_tightest_partial [LinearOrder R] [BoundedOrder R] (B : Bodies R E) (ids : List Int) (hr : ∀ i ∈ ids, 0 ≤ i ∧ i < B.length)
    (hfirst : ∀ i, ids.head? = some i → ∃ b, look B i = some b) :
    ∃ m, setMinMax B ids = .ok m ∧ (∀ bd, MemberBox B ids bd → Inside (bd.min, bd.max) m) ∧
      (∀ c, (∀ bd, MemberBox B ids bd → Inside (bd.min, bd.max) c) → Inside m c) ∧
      ((∀ bd, ¬ MemberBox B ids bd) → m = (fun _ => ⊤, fun _ => ⊥)) := by
  obtain ⟨m, h1, h2⟩ := minMaxLoop_spec (m := ((fun _ => ⊤ : Vec R), (fun _ => ⊥ : Vec R))) hr
  have h3 : setMinMax B ids = .ok m := by
    unfold setMinMax
    cases ids with
    | nil => exact h1
    | cons i l =>
      obtain ⟨b, hb⟩ := hfirst i rfl
      dsimp only
      rw [deref_ok.mpr hb]
      exact h1
  have hbot : ∀ c : Vec R × Vec R, Inside ((fun _ => ⊤ : Vec R), (fun _ => ⊥ : Vec R)) c := fun c i => ⟨le_top, bot_le⟩
  have hrefl : Inside m m := fun i => ⟨le_rfl, le_rfl⟩
  refine ⟨m, h3, ((h2 m).mp hrefl).2, fun c hc => (h2 c).mpr ⟨hbot c, hc⟩, fun hn => ?_⟩
  have := (h2 ((fun _ => ⊤ : Vec R), (fun _ => ⊥ : Vec R))).mpr ⟨hbot _, fun bd h => absurd h (hn bd)⟩
  exact Prod.ext (funext fun i => top_le_iff.mp (this i).1) (funext fun i => le_bot_iff.mp (this i).2)

/-- **C44 is false** when the first body of the subdomain has been erased (later ones may be): the missing body is dereferenced. -/
theorem C44_violated [LinearOrder R] [BoundedOrder R] (B : Bodies R E) (i : Int) (ids : List Int) (h : look B i = none) : setMinMax B (i :: ids) = .ub := by
  unfold setMinMax; dsimp only; rw [deref_ub h]; rfl

/-- hypotheses of `C44_tightest_partial`: three members, one without box, one erased -/
example : ∃ B : Bodies (Fin 10) Unit, (∀ i ∈ [(0 : Int), 1, 2], 0 ≤ i ∧ i < B.length) ∧ (∃ b, look B 0 = some b) ∧ look B 1 = none ∧
    (∃ bd, MemberBox B [0, 1, 2] bd ∧ bd.min = ![1, 2, 3]) := by
  refine ⟨[some ⟨⟨![0, 0, 0], ![0, 0, 0], ![0, 0, 0], ⟨1, 0, 0, 0⟩, ![0, 0, 0]⟩, none, 1, false, true, ()⟩, none,
    some ⟨⟨![0, 0, 0], ![0, 0, 0], ![0, 0, 0], ⟨1, 0, 0, 0⟩, ![0, 0, 0]⟩, some ⟨![1, 2, 3], ![4, 4, 4], none⟩, 1, false, true, ()⟩], ?_, ⟨_, rfl⟩, rfl,
    ⟨_, ⟨2, by simp, _, rfl, rfl⟩, rfl⟩⟩
  intro i hi
  simp only [List.mem_cons, List.not_mem_nil, or_false] at hi
  rcases hi with rfl | rfl | rfl <;> simp

end Verif.Mpi
