import Verif.Bodies.Ops
/-!
# Properties C01–C05: the body container and clump membership

What a user sees of the container is `look s k`: the body found at id `k` (if any), with its own idea
of its id, of the clump it belongs to, and (for clumps) the list of its members.
-/
namespace Verif.Bodies
open Verif

/-- The empty container. -/
def init : BSt := ⟨[], fun _ => ⟨idNone, idNone, none⟩, 0⟩

/-- ends (normally or by an exception) in state `s'` -/
def Ends {α : Type} (r : Run α) (s' : BSt) : Prop := (∃ a, r = .ok s' a) ∨ r = .throws s'

/-! ## C01 -/

/-- All histories of container operations.  The only restriction: `insertAtId` is not given an object
that sits in the container already. -/
inductive Hist : BSt → Prop
  | init : Hist init
  | new {s} : Hist s → Hist (newBody s).1
  | append {s r s' i} : Hist s → r < s.next → append s r = .ok (s', i) → Hist s'
  | insertAtId {s r k s' i} : Hist s → r < s.next → (∀ j, ¬ At s j r) → insertAtId s r k = .ok (s', i) → Hist s'
  | erase {s k flag s'} : Hist s → Ends (erase k flag s) s' → Hist s'
  | clear {s} : Hist s → Hist (clear s)
  | clump {s ids s'} : Hist s → Ends (clump ids s) s' → Hist s'
  | addToClump {s ids c s'} : Hist s → Ends (addToClump ids c s) s' → Hist s'
  | release {s b c s'} : Hist s → Ends (releaseFromClump b c s) s' → Hist s'

theorem ends_of_tame {α : Type} {m : M α} (h : Tame m) {s s' : BSt} (hI : IdInv s) (he : Ends (m s) s') :
    IdInv s' := by
  have := h s hI
  rcases he with ⟨a, e⟩ | e <;> rw [e] at this <;> exact this.1

theorem IdInv.newClump {s : BSt} (hI : IdInv s) :
    IdInv ({ s with heap := Bodies.upd s.heap s.next ⟨idNone, idNone, some []⟩, next := s.next + 1 } : BSt) := by
  intro k r h
  have h' : At s k r := h
  obtain ⟨a, b⟩ := hI k r h'
  show (Bodies.upd s.heap s.next _ r).id = k ∧ r < s.next + 1
  rw [upd_other _ _ (by omega)]
  exact ⟨a, by omega⟩

theorem Hist.inv {s : BSt} (h : Hist s) : IdInv s := by
  induction h with
  | init =>
    intro k r hr
    have := At.nonneg hr
    simp [Bodies.init] at this
    omega
  | @new s _ ih =>
    intro k r h
    have h' : At s k r := h
    obtain ⟨a, b⟩ := ih k r h'
    show (Bodies.upd s.heap s.next _ r).id = k ∧ r < s.next + 1
    rw [upd_other _ _ (by omega)]
    exact ⟨a, by omega⟩
  | @append s r s' i _ hr hrun ih =>
    unfold Bodies.append at hrun
    split at hrun
    · simp at hrun
    · rename_i hneg
      have : Bodies.insert s r = (s', i) := by simpa using hrun
      have e : (Bodies.insert s r).1 = s' := by rw [this]
      rw [← e]
      exact ih.insert (unslotted_of_neg ih (by omega)) hr
  | @insertAtId s r k s' i _ hr hu hrun ih =>
    unfold Bodies.insertAtId at hrun
    cases hs : slotAt s k with
    | none => rw [hs] at hrun; simp at hrun
    | some x =>
      rw [hs] at hrun
      cases x with
      | some x =>
        have : (s, (-1 : Int)) = (s', i) := by simpa using hrun
        have e : s = s' := congrArg Prod.fst this
        rw [← e]; exact ih
      | none =>
        have hb : 0 ≤ k ∧ k < s.slots.length := by
          unfold slotAt at hs
          split at hs
          · obtain ⟨hl, _⟩ := List.getElem?_eq_some_iff.mp hs
            omega
          · simp at hs
        have e : (⟨s.slots.set k.toNat (some r), Bodies.upd s.heap r ((s.heap r).setId k), s.next⟩ : BSt) = s' := by
          have := hrun
          simp only [Res.ok.injEq, Prod.mk.injEq] at this
          exact this.1
        rw [← e]
        exact ih.place hb.1 hb.2 hr hu
  | erase _ he ih => exact ends_of_tame (Tame.eraseF 4 _ _) ih he
  | @clear s _ ih =>
    intro k r hr
    have := At.nonneg hr
    simp [Bodies.clear] at this
    omega
  | @clump s ids s' _ he ih =>
    unfold Bodies.clump at he
    simp only [bind_eq, newClumpBody, insertM_eq] at he
    have h0 := ih.newClump
    generalize hs0 : ({ s with heap := Bodies.upd s.heap s.next ⟨idNone, idNone, some []⟩, next := s.next + 1 } : BSt) = s0 at h0 he
    have hh : s0.heap s.next = ⟨idNone, idNone, some []⟩ := by subst hs0; simp
    have h1 := h0.insert (r := s.next) (unslotted_of_neg h0 (by rw [hh]; simp [idNone])) (by subst hs0; simp)
    refine ends_of_tame (m := do
      forEach clumpDetach ids
      forEach (clumpAttach s.next) ids
      updateProps s.next
      pure (Bodies.insert s0 s.next).2) ?_ h1 he
    exact Tame.bind (Tame.forEach Tame.clumpDetach ids) fun _ =>
      Tame.bind (Tame.forEach (Tame.clumpAttach _) ids) fun _ =>
      Tame.bind (Tame.updateProps _) fun _ => Tame.pure _
  | addToClump _ he ih => exact ends_of_tame (Tame.addToClump _ _) ih he
  | release _ he ih => exact ends_of_tame (Tame.releaseFromClump _ _) ih he

/-- C01 (partial: `insertAtId` is never given an object that is stored already).  After any history,
every body found at an id reports that id, and no object is found at two ids. -/
theorem C01_ids_are_slots_partial {s : BSt} (h : Hist s) :
    (∀ k o, look s k = some o → o.id = k) ∧
    (∀ k k' r, At s k r → At s k' r → k = k') :=
  ⟨fun _ _ hk => look_id h.inv hk, fun _ _ _ a b => At.inj h.inv a b⟩

/-- C01: `append` accepts exactly the objects without id; it returns the previous length, the body is
found there, and every other id keeps its body. -/
theorem C01_append {s : BSt} (h : Hist s) (r : Nat) :
    (0 ≤ (s.heap r).id → append s r = .throws) ∧
    ((s.heap r).id < 0 → ∃ s', append s r = .ok (s', s.slots.length) ∧
      s'.slots.length = s.slots.length + 1 ∧
      At s' s.slots.length r ∧
      (∀ j, look s' j = if j = s.slots.length then
        some ⟨s.slots.length, (s.heap r).clumpId, (s.heap r).members⟩ else look s j)) := by
  constructor
  · intro h0; unfold append; rw [if_pos h0]
  · intro h0
    refine ⟨(insert s r).1, ?_, ?_, ?_, ?_⟩
    · unfold append; rw [if_neg (by omega)]; rfl
    · simp [insert]
    · exact (At_insert s r _ _).mpr (Or.inl ⟨rfl, rfl⟩)
    · intro j
      rw [look_insert (unslotted_of_neg h.inv h0)]; rfl

/-- C01: `insertAtId` of an object that is not stored: on a free slot the body is found there with that
id and every other id keeps its body; on an occupied slot nothing changes and −1 is returned. -/
theorem C01_insertAtId {s : BSt} (r : Nat) (hu : ∀ j, ¬ At s j r) (k : Int)
    (h0 : 0 ≤ k) (hl : k < s.slots.length) :
    (look s k ≠ none → insertAtId s r k = .ok (s, -1)) ∧
    (look s k = none → ∃ s', insertAtId s r k = .ok (s', k) ∧ s'.slots.length = s.slots.length ∧
      (∀ j, look s' j = if j = k then some ⟨k, (s.heap r).clumpId, (s.heap r).members⟩ else look s j)) := by
  have hin : ∃ x, slotAt s k = some x := by
    unfold slotAt
    rw [if_pos h0]
    exact ⟨s.slots[k.toNat]'(by omega), List.getElem?_eq_getElem (by omega)⟩
  obtain ⟨x, hx⟩ := hin
  cases x with
  | some x =>
    constructor
    · intro _; unfold insertAtId; rw [hx]
    · intro hl; unfold look at hl; rw [hx] at hl; simp at hl
  | none =>
    constructor
    · intro hl; unfold look at hl; rw [hx] at hl; simp at hl
    · intro _
      refine ⟨_, by unfold insertAtId; rw [hx], by simp, ?_⟩
      intro j
      have := look_set h0 hl hu ((s.heap r).setId k) j
      exact this

/-- C01: operations other than `append`, `insertAtId`, `clump` and `clear` never bring a body to an id
and never move one: whatever is found afterwards was there before. -/
theorem C01_erase_brings_nothing {s s' : BSt} (h : Hist s) {k : Int} {flag : Bool}
    (he : Ends (erase k flag s) s') :
    s'.slots.length = s.slots.length ∧ ∀ j r, At s' j r → At s j r := by
  have := Tame.eraseF 4 k flag s h.inv
  unfold erase at he
  rcases he with ⟨a, e⟩ | e <;> rw [e] at this <;> exact ⟨this.2.1, this.2.2.2⟩

/-- two bodies appended, the second one erased again -/
def demo1 : BSt :=
  ⟨[some 0, none], fun x => if x = 0 then ⟨0, idNone, none⟩ else ⟨-1, idNone, none⟩, 2⟩

/-- C01 as stated is violated: `insertAtId` takes a body that is in the container already.  After
`append(b0); append(b1); erase(1); insertAtId(b0, 1)` the body found at id 0 reports id 1, and the same
body is found at two ids. -/
theorem C01_violated : ∃ s', insertAtId demo1 0 1 = .ok (s', 1) ∧
    look s' 0 = some ⟨1, idNone, none⟩ ∧ At s' 0 0 ∧ At s' 1 0 := by
  refine ⟨_, rfl, rfl, rfl, rfl⟩

/-- three bodies in a row, built by the operations themselves -/
def demo3 : BSt :=
  let s := (newBody init).1; let s := (newBody s).1; let s := (newBody s).1
  let s := (insert s 0).1; let s := (insert s 1).1; (insert s 2).1

theorem demo3_hist : Hist demo3 := by
  have h1 : Hist (newBody (newBody (newBody init).1).1).1 := .new (.new (.new .init))
  have h2 := Hist.append (r := 0) h1 (by decide) (s' := _) (i := _) rfl
  have h3 := Hist.append (r := 1) h2 (by decide) (s' := _) (i := _) rfl
  exact Hist.append (r := 2) h3 (by decide) (s' := _) (i := _) rfl

/-- non-trivial case for C01: three bodies, the middle one erased and put back -/
example : ∃ s1 s2, erase 1 false demo3 = .ok s1 true ∧ insertAtId s1 1 1 = .ok (s2, 1) ∧
    Hist s2 ∧ look s1 1 = none ∧ look s2 1 = some ⟨1, -1, none⟩ ∧ look s2 2 = some ⟨2, -1, none⟩ := by
  refine ⟨_, _, rfl, rfl, ?_, rfl, rfl, rfl⟩
  refine Hist.insertAtId (r := 1) (k := 1) (i := 1) (Hist.erase (k := 1) (flag := false) demo3_hist (Or.inl ⟨true, rfl⟩))
    (by decide) ?_ rfl
  intro j hj
  have hl := (At.nonneg hj)
  have : j = 0 ∨ j = 1 ∨ j = 2 := by
    have h2 : (j : Int) < 3 := hl.2
    omega
  rcases this with e | e | e <;> subst e <;> revert hj <;> simp [At, slotAt, demo3, insert, newBody, init]

/-! ## C02 -/

/-- the ids that hold a body, in increasing order -/
def liveIds (slots : List (Option Nat)) : List Nat :=
  (List.range slots.length).filter (fun k => ((slots[k]?).bind id).isSome)

/-- the live ids from position `p` on -/
def liveFrom (slots : List (Option Nat)) (p : Nat) : List Nat :=
  (List.range' p (slots.length - p)).filter (fun k => ((slots[k]?).bind id).isSome)

theorem liveFrom_zero (slots : List (Option Nat)) : liveFrom slots 0 = liveIds slots := by
  unfold liveFrom liveIds
  rw [Nat.sub_zero, List.range_eq_range']

theorem liveFrom_end {slots : List (Option Nat)} {p : Nat} (h : slots.length ≤ p) : liveFrom slots p = [] := by
  unfold liveFrom
  rw [Nat.sub_eq_zero_of_le h]
  rfl

theorem liveFrom_step {slots : List (Option Nat)} {p : Nat} (h : p < slots.length) :
    liveFrom slots p = (if ((slots[p]?).bind id).isSome then [p] else []) ++ liveFrom slots (p + 1) := by
  unfold liveFrom
  have e : slots.length - p = (slots.length - (p + 1)) + 1 := by omega
  rw [e, List.range'_succ, List.filter_cons]
  split <;> rfl

/-- skipping nulls lands on the next live position or the end -/
theorem skipNull_spec (slots : List (Option Nat)) (g : Bool) : ∀ (n p : Nat), p ≤ slots.length →
    slots.length < p + n →
    ∃ q, skipNull slots (some g) n p = some q ∧ p ≤ q ∧ q ≤ slots.length ∧
      (q < slots.length → ((slots[q]?).bind id).isSome = true) ∧ liveFrom slots p = liveFrom slots q
  | 0, p, h1, h2 => by omega
  | n + 1, p, h1, h2 => by
    unfold skipNull
    by_cases hp : p < slots.length
    · rw [List.getElem?_eq_getElem hp]
      cases hs : slots[p] with
      | some x =>
        refine ⟨p, rfl, by omega, by omega, ?_, rfl⟩
        intro _
        rw [List.getElem?_eq_getElem hp, hs]; rfl
      | none =>
        obtain ⟨q, a, b, c, d, e⟩ := skipNull_spec slots g n (p + 1) (by omega) (by omega)
        refine ⟨q, a, by omega, c, d, ?_⟩
        rw [liveFrom_step hp, List.getElem?_eq_getElem hp, hs, e]; rfl
    · have : p = slots.length := by omega
      subst this
      rw [List.getElem?_eq_none (by omega)]
      refine ⟨slots.length, by cases g <;> rfl, by omega, by omega, fun h => absurd h (by omega), rfl⟩

theorem iterLoop_spec (slots : List (Option Nat)) (g : Bool) : ∀ (n p : Nat), p ≤ slots.length →
    slots.length < p + n → (p < slots.length → ((slots[p]?).bind id).isSome = true) →
    iterLoop slots (some g) n p = some (liveFrom slots p)
  | 0, p, h1, h2, _ => by omega
  | n + 1, p, h1, h2, h3 => by
    unfold iterLoop
    by_cases hp : p = slots.length
    · rw [if_pos hp, liveFrom_end (by omega)]
    · rw [if_neg hp]
      obtain ⟨q, a, b, c, d, e⟩ := skipNull_spec slots g (slots.length + 2) (p + 1) (by omega) (by omega)
      have hn : iterNext slots (some g) p = some q := a
      rw [hn]
      simp only []
      rw [iterLoop_spec slots g n q c (by omega) d, liveFrom_step (by omega : p < slots.length),
        h3 (by omega), e]
      rfl

/-- C02 (partial): if reading the element behind the last one is survived, whatever it yields, then a
full iteration terminates and yields exactly the ids holding a body, in increasing order. -/
theorem C02_iteration_partial (slots : List (Option Nat)) (garbage : Bool) :
    iterate slots (some garbage) = some (liveIds slots) := by
  unfold iterate iterBegin
  by_cases h0 : 0 < slots.length
  · rw [List.getElem?_eq_getElem h0]
    cases hs : slots[0] with
    | some x =>
      simp only []
      rw [iterLoop_spec slots garbage _ 0 (by omega) (by omega)
        (fun _ => by rw [List.getElem?_eq_getElem h0, hs]; rfl), liveFrom_zero]
    | none =>
      simp only []
      obtain ⟨q, a, b, c, d, e⟩ := skipNull_spec slots garbage (slots.length + 2) 1 (by omega) (by omega)
      have hn : iterNext slots (some garbage) 0 = some q := a
      rw [hn]
      simp only []
      rw [iterLoop_spec slots garbage _ q c (by omega) d, ← e, ← liveFrom_zero, liveFrom_step h0,
        List.getElem?_eq_getElem h0, hs]
      rfl
  · have : slots = [] := by
      cases slots with
      | nil => rfl
      | cons _ _ => simp at h0
    subst this
    rfl

theorem skipNull_ub (slots : List (Option Nat)) : ∀ (n p : Nat), (∀ q, p ≤ q → ((slots[q]?).bind id) = none) →
    skipNull slots none n p = none
  | 0, _, _ => rfl
  | n + 1, p, h => by
    unfold skipNull
    have := h p (by omega)
    cases hs : slots[p]? with
    | none => rfl
    | some x =>
      rw [hs] at this
      have : x = none := by simpa using this
      subst this
      exact skipNull_ub slots n (p + 1) (fun q hq => h q (by omega))

theorem iterLoop_ub (slots : List (Option Nat)) : ∀ (n p : Nat), p < slots.length → iterLoop slots none n p = none
  | 0, _, _ => rfl
  | n + 1, p, hp => by
    unfold iterLoop
    rw [if_neg (by omega)]
    cases hn : iterNext slots none p with
    | none => rfl
    | some q =>
      have hq : q < slots.length := by
        have : ∀ m p', skipNull slots none m p' = some q → q < slots.length := by
          intro m
          induction m with
          | zero => intro p' h; simp [skipNull] at h
          | succ m ih =>
            intro p' h
            unfold skipNull at h
            cases hs : slots[p']? with
            | none => rw [hs] at h; simp at h
            | some x =>
              rw [hs] at h
              cases x with
              | none => exact ih _ h
              | some x =>
                obtain ⟨hl, _⟩ := List.getElem?_eq_some_iff.mp hs
                have : p' = q := by simpa using h
                omega
        exact this _ _ hn
      simp only []
      rw [iterLoop_ub slots n q hq]
      rfl

/-- C02 as stated is violated: for every non-empty container a full iteration reads the element behind
the last one (the outcome depends on that read being survived). -/
theorem C02_violated (slots : List (Option Nat)) (h : slots ≠ []) : iterate slots none = none := by
  unfold iterate iterBegin
  have h0 : 0 < slots.length := List.length_pos_iff.mpr h
  rw [List.getElem?_eq_getElem h0]
  cases hs : slots[0] with
  | some x => exact iterLoop_ub slots _ 0 h0
  | none =>
    simp only []
    cases hn : iterNext slots none 0 with
    | none => rfl
    | some q =>
      simp only []
      by_cases hq : q < slots.length
      · exact iterLoop_ub slots _ q hq
      · exfalso
        have : ∀ m p', skipNull slots none m p' = some q → q < slots.length := by
          intro m
          induction m with
          | zero => intro p' h; simp [skipNull] at h
          | succ m ih =>
            intro p' h
            unfold skipNull at h
            cases hs : slots[p']? with
            | none => rw [hs] at h; simp at h
            | some x =>
              rw [hs] at h
              cases x with
              | none => exact ih _ h
              | some x =>
                obtain ⟨hl, _⟩ := List.getElem?_eq_some_iff.mp hs
                have : p' = q := by simpa using h
                omega
        exact hq (this _ _ hn)

/-- non-trivial case for C02: first, middle and last bodies erased -/
example : iterate [none, some 4, none, some 7, none] (some false) = some [1, 3] ∧
    iterate [none, some 4, none, some 7, none] none = none := ⟨rfl, rfl⟩

/-! ## C03 -/

/-- C03: `O.bodies[id]`, for every 32 bit id and every container with fewer than 2³¹ slots: ids below −len
or from len on are refused, a negative id counts from the end, and nothing else is read. -/
theorem C03_getitem (s : BSt) (hlen : s.slots.length < 2147483648) (id : Int)
    (hid : -2147483648 ≤ id ∧ id < 2147483648) :
    (id < -s.slots.length ∨ s.slots.length ≤ id → pyGetitem s id = .throws) ∧
    (∀ i : Nat, i < s.slots.length → (id = i ∨ id = (i : Int) - s.slots.length) →
      ∃ o, s.slots[i]? = some o ∧ pyGetitem s id = .ok o) := by
  have key : id < 0 → wrap32 (((s.slots.length : Int) + id) % 18446744073709551616) = s.slots.length + id := by
    intro hneg
    unfold wrap32
    omega
  constructor
  · intro h
    unfold pyGetitem
    by_cases h0 : id ≥ 0
    · simp only [if_pos h0]
      rw [if_pos (by simp; omega)]
    · simp only [if_neg h0]
      rw [key (by omega), if_pos (by simp; omega)]
  · intro i hi h
    refine ⟨s.slots[i], List.getElem?_eq_getElem hi, ?_⟩
    unfold pyGetitem
    have e : (if id ≥ 0 then id else wrap32 (((s.slots.length : Int) + id) % 18446744073709551616)) = (i : Int) := by
      by_cases h0 : id ≥ 0
      · rw [if_pos h0]; omega
      · rw [if_neg h0, key (by omega)]; omega
    simp only [e]
    rw [if_neg (by simp; omega)]
    have : slotAt s (i : Int) = some s.slots[i] := by
      unfold slotAt
      rw [if_pos (by omega)]
      simp [List.getElem?_eq_getElem hi]
    rw [this]

/-- C03: `exists(id)` is defined for every id and true exactly when a body is found there. -/
theorem C03_exists (s : BSt) (id : Int) : existsBody s id = .ok (look s id).isSome := by
  unfold existsBody look
  by_cases h : 0 ≤ id ∧ id < s.slots.length
  · rw [if_pos h]
    have : slotAt s id = some (s.slots[id.toNat]'(by omega)) := by
      unfold slotAt
      rw [if_pos h.1, List.getElem?_eq_getElem (by omega)]
    rw [this]
    cases s.slots[id.toNat]'(by omega) <;> rfl
  · rw [if_neg h]
    have : slotAt s id = none := by
      unfold slotAt
      split
      · rw [List.getElem?_eq_none (by omega)]
      · rfl
    rw [this]; rfl

/-- C03 as stated is violated: for every id outside the container `insertAtId` and `erase` index outside
the storage. -/
theorem C03_violated (s : BSt) (r : Nat) (flag : Bool) (id : Int) (h : id < 0 ∨ s.slots.length ≤ id) :
    insertAtId s r id = .ub ∧ erase id flag s = .ub := by
  have : slotAt s id = none := by
    unfold slotAt
    split
    · rw [List.getElem?_eq_none (by omega)]
    · rfl
  constructor
  · unfold insertAtId; rw [this]
  · unfold erase eraseF; rw [this]

example : pyGetitem demo1 (-2) = .ok (some 0) ∧ pyGetitem demo1 (-3) = .throws ∧ pyGetitem demo1 2 = .throws ∧
    existsBody demo1 (-1) = .ok false ∧ existsBody demo1 0 = .ok true ∧ existsBody demo1 1 = .ok false := by decide
example : insertAtId demo1 5 2 = .ub := (C03_violated demo1 5 true 2 (Or.inr (by decide))).1

/-! ## C04 -/

/-- What "membership is consistent" means, in terms of the bodies found at ids:
* a body that names a clump `c ≠ its own id` is listed by the body found at `c`;
* a body listed by clump `c` names `c`;
* whoever lists members, or is named as clump, names itself as its clump;
* no clump is listed by another clump; nobody is listed twice. -/
structure Consistent (s : BSt) : Prop where
  named_lists : ∀ k o, look s k = some o → o.clumpId ≠ -1 → o.clumpId ≠ k →
    ∃ oc ms, look s o.clumpId = some oc ∧ oc.members = some ms ∧ k ∈ ms
  listed_names : ∀ c oc ms k, look s c = some oc → oc.members = some ms → k ∈ ms →
    ∃ o, look s k = some o ∧ o.clumpId = c
  owner_self : ∀ c oc ms, look s c = some oc → oc.members = some ms → ms ≠ [] → oc.clumpId = c
  not_nested : ∀ c oc ms k ok ks, look s c = some oc → oc.members = some ms → k ∈ ms →
    look s k = some ok → ok.members = some ks → ks = []
  once : ∀ c oc ms, look s c = some oc → oc.members = some ms → ms.Nodup

theorem Good.consistent {s : BSt} (h : Good s) : Consistent s := by
  have self : ∀ c oc ms, look s c = some oc → oc.members = some ms → ms ≠ [] → oc.clumpId = c := by
    intro c oc ms hc hm hne
    by_cases e : oc.clumpId = c
    · exact e
    · rcases h.cons.noMembers hc e with x | x <;> rw [x] at hm
      · simp at hm
      · exact absurd (by simpa using hm.symm) hne
  constructor
  · intro k o hk hn hne
    obtain ⟨oc, ms, a, b, _, d⟩ := h.cons.owner k o hk hn
    exact ⟨oc, ms, a, b, d (Ne.symm hne)⟩
  · intro c oc ms k hc hm hk
    obtain ⟨o, a, b, _⟩ := h.cons.listed c oc ms k hc hm hk
    exact ⟨o, a, b⟩
  · exact self
  · intro c oc ms k ok ks hc hm hk hok hks
    obtain ⟨o, a, b, d⟩ := h.cons.listed c oc ms k hc hm hk
    rw [hok] at a
    have : ok = o := by simpa using a
    subst this
    by_cases e : ks = []
    · exact e
    · have := self k ok ks hok hks e
      omega
  · exact h.cons.nodup

/-- Histories of the body and clump operations where
* `insertAtId` gets objects that are not stored and not tied to a clump, and an id in range,
* `erase` gets ids in range,
* `clump` gets ids of existing bodies that are not clumps themselves,
* `addToClump` gets standalone bodies.
Exceptions may be thrown by any of them; the history goes on from the state they leave. -/
inductive CHist : BSt → Prop
  | init : CHist init
  | new {s} : CHist s → CHist (newBody s).1
  | append {s r s' i} : CHist s → r < s.next → append s r = .ok (s', i) → CHist s'
  | insertAtId {s r} {k : Int} {s' i} : CHist s → r < s.next → (∀ j, ¬ At s j r) → (s.heap r).clumpId = -1 →
      (s.heap r).members = none → 0 ≤ k → k < s.slots.length → insertAtId s r k = .ok (s', i) → CHist s'
  | erase {s} {k : Int} {flag s'} : CHist s → 0 ≤ k → k < s.slots.length → Ends (erase k flag s) s' → CHist s'
  | clear {s} : CHist s → CHist (clear s)
  | clump {s ids s'} : CHist s → (∀ id ∈ ids, ∃ o, look s id = some o ∧ o.clumpId ≠ id) →
      Ends (clump ids s) s' → CHist s'
  | addToClump {s ids c s'} : CHist s → (∃ o, look s c = some o) →
      (∀ id ∈ ids, ∃ o, look s id = some o ∧ o.clumpId = -1) → Ends (addToClump ids c s) s' → CHist s'
  | release {s b c s'} : CHist s → (∃ o, look s b = some o) → (∃ o, look s c = some o) →
      Ends (releaseFromClump b c s) s' → CHist s'

theorem ends_of_safe {α : Type} {r : Run α} {P : BSt → Prop} (h : r.Safe P) {s' : BSt} (he : Ends r s') : P s' := by
  rcases he with ⟨a, e⟩ | e <;> rw [e] at h <;> exact h

theorem good_init : Good init := by
  have hAt : ∀ k r, ¬ At init k r := by
    intro k r h
    have := At.nonneg h
    simp [init] at this
    omega
  refine ⟨fun k r h => absurd h (hAt k r), ?_, ?_⟩
  · have hl : look init = fun _ => none := by
      funext j
      cases h : look init j with
      | none => rfl
      | some o =>
        obtain ⟨r, hr, _⟩ := look_some h
        exact absurd hr (hAt j r)
    rw [hl]
    constructor <;> intros <;> simp_all
  · intro r hr
    exact absurd hr (by simp [init])

theorem notClump_of {s : BSt} (hG : Good s) {id : Int} {o : BObj} (h : look s id = some o) (hne : o.clumpId ≠ id) :
    ∃ r, At s id r ∧ (s.heap r).isClump = false := by
  obtain ⟨r, hr, e⟩ := look_some h
  refine ⟨r, hr, ?_⟩
  have := ids_of hG hr
  subst e
  simp [BObj.isClump, idNone]
  omega

theorem CHist.good {s : BSt} (h : CHist s) : Good s := by
  induction h with
  | init => exact good_init
  | new _ ih => exact good_newBody ih
  | @append s r s' i _ hr hrun ih =>
    unfold Bodies.append at hrun
    split at hrun
    · simp at hrun
    · rename_i hneg
      have : Bodies.insert s r = (s', i) := by simpa using hrun
      have e : (Bodies.insert s r).1 = s' := by rw [this]
      rw [← e]
      exact good_append ih hr (by omega)
  | insertAtId _ hr hu hc hm h0 hl hrun ih =>
    obtain ⟨s1, i1, a, b⟩ := good_insertAtId ih hr hu hc (Or.inl hm) h0 hl
    rw [a] at hrun
    simp only [Res.ok.injEq, Prod.mk.injEq] at hrun
    rw [← hrun.1]; exact b
  | erase _ h0 hl he ih => exact ends_of_safe (good_erase ih h0 hl _) he
  | clear _ ih => exact good_clear ih
  | clump _ hids he ih =>
    exact ends_of_safe (good_clump ih fun id hid => by
      obtain ⟨o, a, b⟩ := hids id hid
      exact notClump_of ih a b) he
  | addToClump _ hc hids he ih =>
    obtain ⟨o, ho⟩ := hc
    obtain ⟨c, hc, _⟩ := look_some ho
    exact ends_of_safe (good_addToClump ih hc fun id hid => by
      obtain ⟨o, a, b⟩ := hids id hid
      obtain ⟨r, hr, e⟩ := look_some a
      subst e
      exact ⟨r, hr, b⟩) he
  | release _ hb hc he ih =>
    obtain ⟨ob, hb⟩ := hb
    obtain ⟨oc, hc⟩ := hc
    obtain ⟨b, hb, _⟩ := look_some hb
    obtain ⟨c, hc, _⟩ := look_some hc
    exact ends_of_safe (good_release ih hb hc) he

/-- C03 (partial): for ids in range `insertAtId` and `erase` never index outside the storage.  For
`erase` the scene must come from a history as in C04, since the member list is followed. -/
theorem C03_inrange_partial {s : BSt} (h : CHist s) (r : Nat) (flag : Bool) (id : Int)
    (h0 : 0 ≤ id) (hl : id < s.slots.length) :
    insertAtId s r id ≠ .ub ∧ (∃ s' b, erase id flag s = .ok s' b ∨ erase id flag s = .throws s') := by
  constructor
  · unfold insertAtId
    have : slotAt s id = some (s.slots[id.toNat]'(by omega)) := by
      unfold slotAt
      rw [if_pos h0, List.getElem?_eq_getElem (by omega)]
    rw [this]
    cases s.slots[id.toNat]'(by omega) <;> simp
  · have := good_erase h.good h0 hl flag
    cases he : erase id flag s with
    | ok s' b => exact ⟨s', b, Or.inl rfl⟩
    | throws s' => exact ⟨s', true, Or.inr rfl⟩
    | ub => rw [he] at this; exact this.elim
    | nofuel => rw [he] at this; exact this.elim

/-- C04 (partial: see `CHist` for the restrictions).  Clump membership is consistent at all times. -/
theorem C04_consistent_partial {s : BSt} (h : CHist s) : Consistent s := h.good.consistent

/-- C04 (partial): under the same restrictions none of the operations runs into undefined behaviour:
each one ends normally or with an exception. -/
theorem C04_operations_defined_partial {s : BSt} (h : CHist s) :
    (∀ ids, (∀ id ∈ ids, ∃ o, look s id = some o ∧ o.clumpId ≠ id) → ∃ s', Ends (clump ids s) s') ∧
    (∀ ids c, (∃ o, look s c = some o) → (∀ id ∈ ids, ∃ o, look s id = some o ∧ o.clumpId = -1) →
      ∃ s', Ends (addToClump ids c s) s') ∧
    (∀ b c, (∃ o, look s b = some o) → (∃ o, look s c = some o) → ∃ s', Ends (releaseFromClump b c s) s') ∧
    (∀ (k : Int) flag, 0 ≤ k → k < s.slots.length → ∃ s', Ends (erase k flag s) s') := by
  have fin : ∀ {α : Type} {r : Run α}, r.Safe Good → ∃ s', Ends r s' := by
    intro α r hr
    cases r with
    | ok s' a => exact ⟨s', Or.inl ⟨a, rfl⟩⟩
    | throws s' => exact ⟨s', Or.inr rfl⟩
    | ub => exact hr.elim
    | nofuel => exact hr.elim
  refine ⟨?_, ?_, ?_, ?_⟩
  · intro ids hids
    exact fin (good_clump h.good fun id hid => by
      obtain ⟨o, a, b⟩ := hids id hid
      exact notClump_of h.good a b)
  · intro ids c ⟨o, ho⟩ hids
    obtain ⟨c, hc, _⟩ := look_some ho
    exact fin (good_addToClump h.good hc fun id hid => by
      obtain ⟨o, a, b⟩ := hids id hid
      obtain ⟨r, hr, e⟩ := look_some a
      subst e
      exact ⟨r, hr, b⟩)
  · intro b c ⟨ob, hb⟩ ⟨oc, hc⟩
    obtain ⟨b, hb, _⟩ := look_some hb
    obtain ⟨c, hc, _⟩ := look_some hc
    exact fin (good_release h.good hb hc)
  · intro k flag h0 hl
    exact fin (good_erase h.good h0 hl flag)

/-- four bodies -/
def demo4 : BSt :=
  let s := (newBody init).1; let s := (newBody s).1; let s := (newBody s).1; let s := (newBody s).1
  let s := (insert s 0).1; let s := (insert s 1).1; let s := (insert s 2).1; (insert s 3).1

theorem demo4_hist : CHist demo4 := by
  have h1 : CHist (newBody (newBody (newBody (newBody init).1).1).1).1 := .new (.new (.new (.new .init)))
  have h2 := CHist.append (r := 0) h1 (by decide) (s' := _) (i := _) rfl
  have h3 := CHist.append (r := 1) h2 (by decide) (s' := _) (i := _) rfl
  have h4 := CHist.append (r := 2) h3 (by decide) (s' := _) (i := _) rfl
  exact CHist.append (r := 3) h4 (by decide) (s' := _) (i := _) rfl

/-- state reached by an operation -/
def endState {α : Type} : Run α → BSt
  | .ok s _ => s
  | .throws s => s
  | _ => init

/-- ended normally with this result -/
def okWith {α : Type} [DecidableEq α] (a : α) : Run α → Bool
  | .ok _ b => a == b
  | _ => false

theorem ok_endState {α : Type} [DecidableEq α] {a : α} {r : Run α} (h : okWith a r = true) :
    r = .ok (endState r) a := by
  cases r with
  | ok s b =>
    have : a = b := by simpa [okWith] using h
    subst this; rfl
  | throws s => simp [okWith] at h
  | ub => simp [okWith] at h
  | nofuel => simp [okWith] at h

/-- bodies 0,1 in clump 4; bodies 2,3 in clump 5 -/
def demoTwoClumps : BSt := endState (clump [2, 3] (endState (clump [0, 1] demo4)))

theorem demoTwoClumps_hist : CHist demoTwoClumps := by
  have h1 : CHist (endState (clump [0, 1] demo4)) := by
    refine CHist.clump (ids := [0, 1]) demo4_hist ?_ (Or.inl ⟨4, rfl⟩)
    intro id hid
    have : id = 0 ∨ id = 1 := by simpa using hid
    rcases this with e | e <;> subst e
    · exact ⟨⟨0, -1, none⟩, rfl, by decide⟩
    · exact ⟨⟨1, -1, none⟩, rfl, by decide⟩
  refine CHist.clump (ids := [2, 3]) h1 ?_ (Or.inl ⟨5, rfl⟩)
  intro id hid
  have : id = 2 ∨ id = 3 := by simpa using hid
  rcases this with e | e <;> subst e
  · exact ⟨⟨2, -1, none⟩, rfl, by decide⟩
  · exact ⟨⟨3, -1, none⟩, rfl, by decide⟩

/-- non-trivial case for C04: two clumps -/
example : CHist demoTwoClumps ∧
    look demoTwoClumps 4 = some ⟨4, 4, some [0, 1]⟩ ∧ look demoTwoClumps 5 = some ⟨5, 5, some [2, 3]⟩ ∧
    look demoTwoClumps 0 = some ⟨0, 4, none⟩ ∧ look demoTwoClumps 3 = some ⟨3, 5, none⟩ :=
  ⟨demoTwoClumps_hist, rfl, rfl, rfl, rfl⟩

/-- C04 as stated is violated by `addToClump` with a clump: after `addToClump([5], 4)` clump 4 lists
body 2, but body 2 says it is in no clump. -/
theorem C04_violated : CHist demoTwoClumps ∧ ∃ s', addToClump [5] 4 demoTwoClumps = .ok s' () ∧
    look s' 4 = some ⟨4, 4, some [0, 1, 2, 3]⟩ ∧ look s' 2 = some ⟨2, -1, none⟩ ∧ ¬ Consistent s' := by
  have hlook2 : look (endState (addToClump [5] 4 demoTwoClumps)) 2 = some ⟨2, -1, none⟩ := by decide +kernel
  have hlook4 : look (endState (addToClump [5] 4 demoTwoClumps)) 4 = some ⟨4, 4, some [0, 1, 2, 3]⟩ := by
    decide +kernel
  refine ⟨demoTwoClumps_hist, _, ok_endState (by decide +kernel), hlook4, hlook2, ?_⟩
  intro hc
  obtain ⟨o, a, b⟩ := hc.listed_names 4 ⟨4, 4, some [0, 1, 2, 3]⟩ [0, 1, 2, 3] 2 hlook4 rfl (by decide)
  rw [hlook2] at a
  have : (⟨2, -1, none⟩ : BObj) = o := by simpa using a
  subst this
  revert b; decide

/-- C04 as stated is violated by `clump` with the id of a clump: both clumps list body 2. -/
theorem C04_violated_clump : ∃ s', clump [5] demoTwoClumps = .ok s' 6 ∧
    look s' 5 = some ⟨5, 5, some [2, 3]⟩ ∧ look s' 6 = some ⟨6, 6, some [2, 3]⟩ :=
  ⟨_, rfl, rfl, rfl⟩

/-! ## C05 -/

/-- C05: erasing a body that is in no clump removes that body and changes nothing else. -/
theorem C05_erase_free {s : BSt} (h : CHist s) {k : Int} {o : BObj} (flag : Bool) (hk : look s k = some o)
    (hfree : o.clumpId = -1) :
    ∃ s', erase k flag s = .ok s' true ∧ (∀ j, look s' j = if j = k then none else look s j) := by
  obtain ⟨r, hr, e⟩ := look_some hk
  subst e
  obtain ⟨s', a, b⟩ := erase_free h.good 3 flag hr hfree
  exact ⟨s', a, fun j => by rw [b.view]; rfl⟩

/-- C05: erasing a member of clump `c` removes the body and takes it off the list of `c`; `c` itself
disappears exactly when that was its last member.  Nothing else changes. -/
theorem C05_erase_member {s : BSt} (h : CHist s) {k : Int} {o oc : BObj} {ms : List Int} (flag : Bool)
    (hk : look s k = some o) (hmem : o.clumpId ≠ -1) (hne : o.clumpId ≠ k)
    (hc : look s o.clumpId = some oc) (hm : oc.members = some ms) :
    ∃ s' rest, erase k flag s = .ok s' true ∧ (∀ x, x ∈ rest ↔ x ∈ ms ∧ x ≠ k) ∧ rest.Nodup ∧
      (∀ j, look s' j = if j = k then none
        else if j = o.clumpId then (if rest = [] then none else some ⟨oc.id, oc.clumpId, some rest⟩)
        else look s j) := by
  obtain ⟨r, hr, e⟩ := look_some hk
  subst e
  obtain ⟨c, hc', e⟩ := look_some hc
  subst e
  have hid := ids_of h.good hr
  have hmem' : (s.heap r).isClumpMember = true := by
    simp [BObj.isClumpMember, idNone]
    omega
  obtain ⟨s', a, b⟩ := erase_member h.good 2 flag hr hmem' hc' hm
  refine ⟨s', ms.filter (· ≠ k), a, by simp, (h.good.cons.nodup _ _ _ hc hm).filter _, fun j => ?_⟩
  rw [b.view]
  rfl

/-- C05: erasing a clump without asking for its members removes the clump body and makes each member
standalone.  Nothing else changes. -/
theorem C05_erase_clump_keep {s : BSt} (h : CHist s) {k : Int} {oc : BObj} {ms : List Int}
    (hk : look s k = some oc) (hc : oc.clumpId = k) (hm : oc.members = some ms) :
    ∃ s', erase k false s = .ok s' true ∧
      (∀ j, look s' j = if j = k then none
        else if j ∈ ms then (look s j).map (fun o => ⟨o.id, -1, o.members⟩) else look s j) := by
  obtain ⟨r, hr, e⟩ := look_some hk
  subst e
  have hid := ids_of h.good hr
  have h0 := (At.nonneg hr).1
  obtain ⟨s', a, b⟩ := erase_clump_free h.good 3 hr (by simp [BObj.isClump, idNone]; omega) hm
  exact ⟨s', a, fun j => by rw [b.view]; rfl⟩

/-- C05: erasing a clump together with its members removes the clump body and all its members, whatever
their number.  Nothing else changes. -/
theorem C05_erase_clump_all {s : BSt} (h : CHist s) {k : Int} {oc : BObj} {ms : List Int}
    (hk : look s k = some oc) (hc : oc.clumpId = k) (hm : oc.members = some ms) :
    ∃ s', erase k true s = .ok s' true ∧
      (∀ j, look s' j = if j = k ∨ j ∈ ms then none else look s j) := by
  obtain ⟨r, hr, e⟩ := look_some hk
  subst e
  have hid := ids_of h.good hr
  have h0 := (At.nonneg hr).1
  obtain ⟨s', a, b⟩ := erase_clump_all h.good 1 hr (by simp [BObj.isClump, idNone]; omega) hm
  exact ⟨s', a, fun j => by rw [b.view]⟩

/-- C05: erasing an id whose body is gone already does nothing and returns false. -/
theorem C05_erase_gone {s : BSt} {k : Int} (flag : Bool) (h0 : 0 ≤ k) (hl : k < s.slots.length)
    (hk : look s k = none) : erase k flag s = .ok s false := by
  have : slotAt s k = some none := by
    have hx : slotAt s k = some (s.slots[k.toNat]'(by omega)) := by
      unfold slotAt
      rw [if_pos h0, List.getElem?_eq_getElem (by omega)]
    cases hs : s.slots[k.toNat]'(by omega) with
    | none => rw [hs] at hx; exact hx
    | some r =>
      unfold look at hk
      rw [hx, hs] at hk
      simp at hk
  unfold erase eraseF
  rw [this]

/-- the cases of C05 cover every body of a consistent scene: it is in no clump, a member, or a clump
with a member list -/
theorem C05_cases {s : BSt} (h : CHist s) {k : Int} {o : BObj} (hk : look s k = some o) :
    o.clumpId = -1 ∨
    (o.clumpId ≠ -1 ∧ o.clumpId ≠ k ∧ ∃ oc ms, look s o.clumpId = some oc ∧ oc.members = some ms) ∨
    (o.clumpId = k ∧ ∃ ms, o.members = some ms) := by
  by_cases e : o.clumpId = -1
  · exact Or.inl e
  · obtain ⟨oc, ms, a, b, _⟩ := h.good.cons.owner k o hk e
    by_cases e2 : o.clumpId = k
    · rw [e2, hk] at a
      have : o = oc := by simpa using a
      subst this
      exact Or.inr (Or.inr ⟨e2, ms, b⟩)
    · exact Or.inr (Or.inl ⟨e, e2, oc, ms, a, b⟩)

/-- non-trivial cases for C05 in the scene with two clumps -/
example : CHist demoTwoClumps ∧
    (∃ s', erase 2 false demoTwoClumps = .ok s' true ∧ look s' 5 = some ⟨5, 5, some [3]⟩ ∧ look s' 2 = none) ∧
    (∃ s', erase 5 true demoTwoClumps = .ok s' true ∧ look s' 5 = none ∧ look s' 2 = none ∧ look s' 3 = none ∧
      look s' 4 = some ⟨4, 4, some [0, 1]⟩) ∧
    (∃ s', erase 5 false demoTwoClumps = .ok s' true ∧ look s' 5 = none ∧ look s' 3 = some ⟨3, -1, none⟩) :=
  ⟨demoTwoClumps_hist,
    ⟨_, ok_endState (by decide +kernel), by decide +kernel, by decide +kernel⟩,
    ⟨_, ok_endState (by decide +kernel), by decide +kernel, by decide +kernel, by decide +kernel, by decide +kernel⟩,
    ⟨_, ok_endState (by decide +kernel), by decide +kernel, by decide +kernel⟩⟩

end Verif.Bodies
