import Verif.Bodies.Model
/-! # Helper lemmas for the body container -/
namespace Verif.Bodies
open Verif

/-- slot `k` holds object `r` -/
def At (s : BSt) (k : Int) (r : Nat) : Prop := slotAt s k = some (some r)

/-- the body found at an id -/
def look (s : BSt) (k : Int) : Option BObj :=
  match slotAt s k with
  | some (some r) => some (s.heap r)
  | _ => none

/-- every stored body carries the id of its slot -/
def IdInv (s : BSt) : Prop := ∀ k r, At s k r → (s.heap r).id = k ∧ r < s.next

theorem At.nonneg {s : BSt} {k : Int} {r : Nat} (h : At s k r) : 0 ≤ k ∧ k < s.slots.length := by
  unfold At slotAt at h
  split at h
  · rename_i h0
    have := List.getElem?_eq_some_iff.mp h
    obtain ⟨hl, _⟩ := this
    omega
  · simp at h

theorem At.inj {s : BSt} (hI : IdInv s) {k k' : Int} {r : Nat} (h : At s k r) (h' : At s k' r) : k = k' := by
  have a := (hI k r h).1
  have b := (hI k' r h').1
  omega

theorem At.uniq {s : BSt} {k : Int} {r r' : Nat} (h : At s k r) (h' : At s k r') : r = r' := by
  unfold At at h h'
  rw [h] at h'
  simpa using h'

theorem look_at {s : BSt} {k : Int} {r : Nat} (h : At s k r) : look s k = some (s.heap r) := by
  unfold look; unfold At at h; rw [h]

theorem look_some {s : BSt} {k : Int} {o : BObj} (h : look s k = some o) :
    ∃ r, At s k r ∧ s.heap r = o := by
  unfold look at h
  split at h
  · rename_i r hr
    exact ⟨r, hr, by simpa using h⟩
  · simp at h

theorem look_id {s : BSt} (hI : IdInv s) {k : Int} {o : BObj} (h : look s k = some o) : o.id = k := by
  obtain ⟨r, hr, e⟩ := look_some h
  rw [← e]; exact (hI k r hr).1

theorem byId_at {s : BSt} {k : Int} {r : Nat} (h : At s k r) : byId k s = .ok s r := by
  unfold byId; unfold At at h; rw [h]

@[simp] theorem bind_eq {α β : Type} (m : M α) (f : α → M β) (s : BSt) :
    (m >>= f) s = match m s with
    | .ok s1 a => f a s1
    | .throws s1 => .throws s1
    | .ub => .ub
    | .nofuel => .nofuel := rfl

@[simp] theorem pure_eq {α : Type} (a : α) (s : BSt) : (pure a : M α) s = .ok s a := rfl
@[simp] theorem obj_eq (r : Nat) (s : BSt) : obj r s = .ok s (s.heap r) := rfl
@[simp] theorem setObj_eq (r : Nat) (o : BObj) (s : BSt) :
    setObj r o s = .ok { s with heap := upd s.heap r o } () := rfl
@[simp] theorem raise_eq {α : Type} (s : BSt) : (raise : M α) s = .throws s := rfl
@[simp] theorem undef_eq {α : Type} (s : BSt) : (undef : M α) s = .ub := rfl
@[simp] theorem noFuel_eq {α : Type} (s : BSt) : (noFuel : M α) s = .nofuel := rfl
@[simp] theorem dropSlot_eq (id : Int) (s : BSt) :
    dropSlot id s = .ok { s with slots := s.slots.set id.toNat none } () := rfl
@[simp] theorem insertM_eq (r : Nat) (s : BSt) : insertM r s = .ok (insert s r).1 (insert s r).2 := rfl

theorem membersOf_some {s : BSt} {r : Nat} {ms : List Int} (h : (s.heap r).members = some ms) :
    membersOf r s = .ok s ms := by unfold membersOf; rw [h]

@[simp] theorem upd_same (f : Nat → BObj) (r : Nat) (o : BObj) : upd f r o r = o := by simp [upd]
theorem upd_other (f : Nat → BObj) {r x : Nat} (o : BObj) (h : x ≠ r) : upd f r o x = f x := by
  simp [upd, h]

/-- changing an object without changing its id -/
theorem IdInv.upd {s : BSt} (hI : IdInv s) (r : Nat) (o : BObj) (h : o.id = (s.heap r).id) :
    IdInv { s with heap := upd s.heap r o } := by
  intro k x hx
  have hx' : At s k x := hx
  obtain ⟨a, b⟩ := hI k x hx'
  refine ⟨?_, b⟩
  show (Bodies.upd s.heap r o x).id = k
  unfold Bodies.upd
  split
  · rename_i e; subst e; rw [h]; exact a
  · exact a

theorem look_upd {s : BSt} (hI : IdInv s) {k : Int} {r : Nat} (o : BObj) (h : At s k r) (j : Int) :
    look { s with heap := upd s.heap r o } j = if j = k then some o else look s j := by
  by_cases hj : j = k
  · subst hj
    have : At { s with heap := upd s.heap r o } j r := h
    rw [look_at this, if_pos rfl]; simp
  · rw [if_neg hj]
    unfold look
    have e : slotAt { s with heap := upd s.heap r o } j = slotAt s j := rfl
    rw [e]
    cases hs : slotAt s j with
    | none => rfl
    | some x =>
      cases x with
      | none => rfl
      | some x =>
        have hx : x ≠ r := by
          intro e; subst e
          exact hj (At.inj hI (k := j) (k' := k) (r := x) hs h)
        show some (upd s.heap r o x) = some (s.heap x)
        rw [upd_other _ _ hx]

theorem slotAt_drop (s : BSt) {k : Int} (h0 : 0 ≤ k) (j : Int) :
    slotAt { s with slots := s.slots.set k.toNat none } j =
      if j = k ∧ k < s.slots.length then some none else slotAt s j := by
  unfold slotAt
  by_cases hj : 0 ≤ j
  · simp only [if_pos hj, List.getElem?_set]
    by_cases e : j = k
    · subst e
      by_cases hl : j < s.slots.length
      · rw [if_pos rfl, if_pos (by omega), if_pos ⟨rfl, hl⟩]
      · rw [if_pos rfl, if_neg (by omega), if_neg (by omega)]
        simp; omega
    · rw [if_neg (by omega), if_neg (by omega)]
  · rw [if_neg hj, if_neg (by omega), if_neg hj]

theorem look_drop (s : BSt) {k : Int} (h0 : 0 ≤ k) (j : Int) :
    look { s with slots := s.slots.set k.toNat none } j = if j = k then none else look s j := by
  unfold look
  rw [slotAt_drop s h0]
  by_cases e : j = k
  · subst e
    by_cases hl : j < s.slots.length
    · simp [hl]
    · rw [if_neg (by omega), if_pos rfl]
      have : slotAt s j = none := by
        unfold slotAt; rw [if_pos h0]; simp; omega
      rw [this]
  · rw [if_neg (by omega), if_neg e]

theorem At_drop {s : BSt} {k : Int} (h0 : 0 ≤ k) {j : Int} {r : Nat} :
    At { s with slots := s.slots.set k.toNat none } j r ↔ j ≠ k ∧ At s j r := by
  unfold At
  rw [slotAt_drop s h0]
  by_cases e : j = k
  · subst e
    by_cases hl : j < s.slots.length
    · simp [hl]
    · have : slotAt s j = none := by
        unfold slotAt; rw [if_pos h0]; simp; omega
      simp [this]
  · rw [if_neg (by omega)]; simp [e]

theorem IdInv.drop {s : BSt} (hI : IdInv s) (k : Int) :
    IdInv { s with slots := s.slots.set k.toNat none } := by
  intro j r hr
  by_cases h0 : 0 ≤ k
  · exact hI j r ((At_drop h0).mp hr).2
  · have e : k.toNat = (0 : Int).toNat := by omega
    rw [e] at hr
    exact hI j r ((At_drop (by omega)).mp hr).2

/-- the last steps of a plain erase: id −1, slot emptied -/
theorem IdInv.remove {s : BSt} (hI : IdInv s) {k : Int} {r : Nat} (h : At s k r) (o : BObj) :
    IdInv { s with heap := Bodies.upd s.heap r o, slots := s.slots.set k.toNat none } := by
  intro j x hx
  have hx' := (At_drop (s := { s with heap := Bodies.upd s.heap r o }) (At.nonneg h).1).mp hx
  obtain ⟨hj, hx2⟩ := hx'
  have hx3 : At s j x := hx2
  obtain ⟨a, b⟩ := hI j x hx3
  refine ⟨?_, b⟩
  have hne : x ≠ r := by
    intro e; subst e; exact hj (At.inj hI hx3 h)
  show (Bodies.upd s.heap r o x).id = j
  rw [upd_other _ _ hne]; exact a

/-! ### Inserting -/

theorem slotAt_append (s : BSt) (x : Option Nat) (j : Int) (h : Nat → BObj) (n : Nat) :
    slotAt ⟨s.slots ++ [x], h, n⟩ j = if j = s.slots.length then some x else slotAt s j := by
  unfold slotAt
  by_cases hj : 0 ≤ j
  · simp only [if_pos hj, List.getElem?_append]
    by_cases e : j = s.slots.length
    · subst e; simp
    · rw [if_neg e]
      by_cases hl : j.toNat < s.slots.length
      · rw [if_pos hl]
      · rw [if_neg hl]
        rw [List.getElem?_eq_none (by simp; omega), List.getElem?_eq_none (by omega)]
  · rw [if_neg hj, if_neg (by omega), if_neg hj]

theorem At_insert (s : BSt) (r : Nat) (j : Int) (x : Nat) :
    At (insert s r).1 j x ↔ (j = s.slots.length ∧ x = r) ∨ (At s j x) := by
  unfold At insert
  rw [slotAt_append]
  by_cases e : j = s.slots.length
  · subst e
    rw [if_pos rfl]
    have : slotAt s (s.slots.length : Int) = none := by unfold slotAt; simp
    rw [this]; simp; exact eq_comm
  · rw [if_neg e]; simp [e]

/-- `r` is in no slot -/
def Unslotted (s : BSt) (r : Nat) : Prop := ∀ k, ¬ At s k r

theorem IdInv.insert {s : BSt} (hI : IdInv s) {r : Nat} (hr : Unslotted s r) (hn : r < s.next) :
    IdInv (insert s r).1 := by
  intro j x hx
  rcases (At_insert s r j x).mp hx with ⟨e, e'⟩ | h
  · subst e'; subst e
    refine ⟨?_, hn⟩
    show (Bodies.upd s.heap x _ x).id = _
    simp
  · obtain ⟨a, b⟩ := hI j x h
    refine ⟨?_, b⟩
    have : x ≠ r := by intro e; subst e; exact hr j h
    show (Bodies.upd s.heap r _ x).id = j
    rw [upd_other _ _ this]; exact a

theorem unslotted_of_neg {s : BSt} (hI : IdInv s) {r : Nat} (h : (s.heap r).id < 0) : Unslotted s r := by
  intro k hk
  have := (hI k r hk).1
  have := (At.nonneg hk).1
  omega

theorem look_insert {s : BSt} {r : Nat} (hr : Unslotted s r) (j : Int) :
    look (insert s r).1 j =
      if j = s.slots.length then some ((s.heap r).setId s.slots.length) else look s j := by
  by_cases e : j = s.slots.length
  · subst e
    have : At (insert s r).1 (s.slots.length : Int) r := (At_insert s r _ _).mpr (Or.inl ⟨rfl, rfl⟩)
    rw [look_at this, if_pos rfl]
    show some (upd s.heap r _ r) = _
    simp
  · rw [if_neg e]
    have e1 : slotAt (insert s r).1 j = slotAt s j := by
      unfold insert; rw [slotAt_append, if_neg e]
    unfold look
    rw [e1]
    cases hs : slotAt s j with
    | none => rfl
    | some x =>
      cases x with
      | none => rfl
      | some x =>
        have hx : x ≠ r := by intro e; subst e; exact hr j hs
        show some (upd s.heap r _ x) = some (s.heap x)
        rw [upd_other _ _ hx]

theorem slotAt_set (s : BSt) {k : Int} (h0 : 0 ≤ k) (hl : k < s.slots.length) (r : Nat)
    (h : Nat → BObj) (n : Nat) (j : Int) :
    slotAt ⟨s.slots.set k.toNat (some r), h, n⟩ j = if j = k then some (some r) else slotAt s j := by
  unfold slotAt
  by_cases hj : 0 ≤ j
  · simp only [if_pos hj, List.getElem?_set]
    by_cases e : j = k
    · subst e
      rw [if_pos rfl, if_pos (by omega), if_pos rfl]
    · rw [if_neg (by omega), if_neg (by omega)]
  · rw [if_neg hj, if_neg (by omega), if_neg hj]

/-! ### Operations that keep an invariant and never fill a slot -/

/-- slots are kept or emptied, no slot appears -/
def Shrinks (s s' : BSt) : Prop :=
  s'.slots.length = s.slots.length ∧ s'.next = s.next ∧ ∀ k r, At s' k r → At s k r

theorem Shrinks.refl (s : BSt) : Shrinks s s := ⟨rfl, rfl, fun _ _ h => h⟩
theorem Shrinks.trans {a b c : BSt} (h1 : Shrinks a b) (h2 : Shrinks b c) : Shrinks a c :=
  ⟨h2.1.trans h1.1, h2.2.1.trans h1.2.1, fun k r h => h1.2.2 k r (h2.2.2 k r h)⟩

/-- the state an operation ends in (normally or by an exception) satisfies `P` -/
def Run.Sat {α : Type} (P : BSt → Prop) : Run α → Prop
  | .ok s _ => P s
  | .throws s => P s
  | _ => True

/-- keeps `IdInv`, fills no slot -/
def Tame {α : Type} (m : M α) : Prop := ∀ s, IdInv s → (m s).Sat (fun s' => IdInv s' ∧ Shrinks s s')

theorem Tame.pure {α : Type} (a : α) : Tame (Pure.pure a : M α) := fun s h => ⟨h, Shrinks.refl s⟩
theorem Tame.raise {α : Type} : Tame (Bodies.raise : M α) := fun s h => ⟨h, Shrinks.refl s⟩
theorem Tame.obj (r : Nat) : Tame (Bodies.obj r) := fun s h => ⟨h, Shrinks.refl s⟩
theorem Tame.noFuel {α : Type} : Tame (Bodies.noFuel : M α) := fun _ _ => trivial
theorem Tame.byId (id : Int) : Tame (Bodies.byId id) := by
  intro s h
  unfold Bodies.byId
  split
  · exact ⟨h, Shrinks.refl s⟩
  · trivial
theorem Tame.membersOf (r : Nat) : Tame (Bodies.membersOf r) := by
  intro s h
  unfold Bodies.membersOf
  split
  · exact ⟨h, Shrinks.refl s⟩
  · trivial

theorem Tame.bind {α β : Type} {m : M α} {f : α → M β} (hm : Tame m) (hf : ∀ a, Tame (f a)) :
    Tame (m >>= f) := by
  intro s h
  have h1 := hm s h
  rw [bind_eq]
  cases hms : m s with
  | ok s1 a =>
    rw [hms] at h1
    have h2 := hf a s1 h1.1
    show Run.Sat _ (f a s1)
    cases hfs : f a s1 with
    | ok s2 b => rw [hfs] at h2; exact ⟨h2.1, h1.2.trans h2.2⟩
    | throws s2 => rw [hfs] at h2; exact ⟨h2.1, h1.2.trans h2.2⟩
    | ub => trivial
    | nofuel => trivial
  | throws s1 => rw [hms] at h1; exact h1
  | ub => trivial
  | nofuel => trivial

/-- read an object, write it back with the same id, go on -/
theorem Tame.modify {β : Type} {r : Nat} {g : BObj → BObj} (hg : ∀ o, (g o).id = o.id)
    {f : BObj → Unit → M β} (hf : ∀ o u, Tame (f o u)) :
    Tame (Bodies.obj r >>= fun o => setObj r (g o) >>= f o) := by
  intro s h
  simp only [bind_eq, obj_eq, setObj_eq]
  have h1 : IdInv { s with heap := upd s.heap r (g (s.heap r)) } := h.upd r _ (hg _)
  have h2 := hf (s.heap r) () _ h1
  cases hfs : f (s.heap r) () { s with heap := upd s.heap r (g (s.heap r)) } with
  | ok s2 b => rw [hfs] at h2; exact ⟨h2.1, h2.2⟩
  | throws s2 => rw [hfs] at h2; exact ⟨h2.1, h2.2⟩
  | ub => trivial
  | nofuel => trivial

theorem Tame.modify' {r : Nat} {g : BObj → BObj} (hg : ∀ o, (g o).id = o.id) :
    Tame (Bodies.obj r >>= fun o => setObj r (g o)) := by
  intro s h
  simp only [bind_eq, obj_eq, setObj_eq]
  exact ⟨h.upd r _ (hg _), Shrinks.refl s⟩

theorem Tame.ite {α : Type} {c : Prop} [Decidable c] {a b : M α} (ha : Tame a) (hb : Tame b) :
    Tame (if c then a else b) := by split <;> assumption

theorem Tame.forEach {α : Type} {f : α → M Unit} (hf : ∀ a, Tame (f a)) (l : List α) :
    Tame (Bodies.forEach f l) := by
  induction l with
  | nil => exact Tame.pure ()
  | cons a as ih => exact Tame.bind (hf a) (fun _ => ih)

theorem Tame.clumpDel (c b : Nat) : Tame (Bodies.clumpDel c b) := by
  unfold Bodies.clumpDel
  refine Tame.bind (Tame.membersOf c) fun ms => Tame.bind (Tame.obj b) fun ob => Tame.ite ?_ Tame.raise
  exact Tame.modify (g := fun oc => (oc.setMembers ((ms.filter (· ≠ ob.id))))) (fun _ => rfl)
    (fun _ _ => Tame.modify' (g := fun o => (o.setClump idNone)) (fun _ => rfl))

theorem Tame.adoptMember (c : Nat) (m : Int) : Tame (Bodies.adoptMember c m) := by
  unfold Bodies.adoptMember
  refine Tame.bind (Tame.byId m) fun r => Tame.bind (Tame.obj c) fun oc => ?_
  exact Tame.modify (g := fun o => (o.setClump oc.id)) (fun _ => rfl)
    (fun _ _ => Tame.bind (Tame.membersOf c) fun ms =>
      Tame.modify' (g := fun o => (o.setMembers ((addKey ms m)))) (fun _ => rfl))

theorem Tame.clumpAdd (c b : Nat) : Tame (Bodies.clumpAdd c b) := by
  unfold Bodies.clumpAdd
  refine Tame.bind (Tame.membersOf c) fun ms => Tame.bind (Tame.obj b) fun ob =>
    Tame.ite Tame.raise (Tame.ite Tame.raise ?_)
  have last : Tame (do let oc ← Bodies.obj c; setObj c (oc.setClump oc.id)) :=
    Tame.modify' (g := fun oc => (oc.setClump oc.id)) (fun _ => rfl)
  simp only []
  split
  · exact Tame.bind (Tame.membersOf b) fun sm =>
      Tame.bind (Tame.forEach (Tame.adoptMember c) sm) fun _ => last
  · exact Tame.modify (g := fun oc => (oc.setMembers ((addKey ms ob.id)))) (fun _ => rfl)
      (fun oc _ => Tame.modify (g := fun o => (o.setClump oc.id)) (fun _ => rfl) fun _ _ => last)

theorem Tame.updateProps (c : Nat) : Tame (Bodies.updateProps c) := by
  unfold Bodies.updateProps
  exact Tame.bind (Tame.membersOf c) fun ms => Tame.ite Tame.raise (Tame.pure ())

theorem Tame.clumpDetach (id : Int) : Tame (Bodies.clumpDetach id) := by
  unfold Bodies.clumpDetach
  exact Tame.bind (Tame.byId id) fun b => Tame.bind (Tame.obj b) fun ob =>
    Tame.ite (Tame.bind (Tame.byId _) fun c => Tame.clumpDel c b) (Tame.pure ())

theorem Tame.clumpAttach (c : Nat) (id : Int) : Tame (Bodies.clumpAttach c id) := by
  unfold Bodies.clumpAttach
  exact Tame.bind (Tame.byId id) fun b => Tame.clumpAdd c b

theorem Tame.removePlain (id : Int) {k : Nat → BObj → M Bool} (hk : ∀ b o, Tame (k b o)) :
    Tame (do
      let b ← Bodies.byId id
      let ob ← Bodies.obj b
      if ob.isClump then k b ob
      else do
        setObj b (ob.setId (-1))
        dropSlot id
        Pure.pure true : M Bool) := by
  intro s h
  simp only [bind_eq]
  unfold Bodies.byId
  cases hs : slotAt s id with
  | none => trivial
  | some x =>
    cases x with
    | none => trivial
    | some r =>
      simp only [obj_eq]
      split
      · exact hk _ _ s h
      · simp only [bind_eq, setObj_eq, dropSlot_eq, pure_eq]
        have hr : At s id r := hs
        refine ⟨h.remove hr _, by simp, rfl, ?_⟩
        intro k x hx
        have hx' := (At_drop (s := { s with heap := upd s.heap r ((s.heap r).setId (-1)) })
          (At.nonneg hr).1).mp hx
        exact hx'.2

theorem Tame.dropSlot (id : Int) : Tame (Bodies.dropSlot id) := by
  intro s h
  rw [dropSlot_eq]
  refine ⟨h.drop id, by simp, rfl, ?_⟩
  intro k x hx
  have e : id.toNat = (max id 0).toNat := by omega
  simp only [e] at hx
  exact ((At_drop (by omega)).mp hx).2

theorem Tame.eraseF : ∀ (n : Nat) (id : Int) (flag : Bool), Tame (Bodies.eraseF n id flag)
  | 0, _, _ => Tame.noFuel
  | n + 1, id, flag => by
    intro s h
    unfold Bodies.eraseF
    cases hs : slotAt s id with
    | none => trivial
    | some x =>
      cases x with
      | none => exact ⟨h, Shrinks.refl s⟩
      | some b =>
        refine Tame.bind (Tame.obj b) (fun ob => ?_) s h
        simp only []
        have tail := Tame.removePlain id (k := fun b _ => (do
            let ms ← Bodies.membersOf b
            Bodies.forEach (fun m => if flag then do
                let _ ← Bodies.eraseF n m false
                Pure.pure ()
              else do
                let r ← Bodies.byId m
                let o ← Bodies.obj r
                setObj r (o.setClump idNone)) ms
            Bodies.dropSlot id
            Pure.pure true)) (fun b o => Tame.bind (Tame.membersOf b) fun ms =>
              Tame.bind (Tame.forEach (fun m => Tame.ite
                (Tame.bind (Tame.eraseF n m false) fun _ => Tame.pure ())
                (Tame.bind (Tame.byId m) fun r =>
                  Tame.modify' (g := fun o => (o.setClump idNone)) fun _ => rfl)) ms) fun _ =>
              Tame.bind (Tame.dropSlot id) fun _ => Tame.pure true)
        split
        · refine Tame.bind (Tame.byId _) fun c => Tame.bind (Tame.clumpDel c b) fun _ =>
            Tame.bind (Tame.membersOf c) fun ms => ?_
          split
          · exact Tame.bind (Tame.obj c) fun oc => Tame.bind (Tame.eraseF n _ false) fun _ => tail
          · exact tail
        · exact tail

theorem Tame.addToClumpOne (clp : Nat) (bid : Int) : Tame (Bodies.addToClumpOne clp bid) := by
  unfold Bodies.addToClumpOne
  refine Tame.bind (Tame.byId bid) fun bp => Tame.bind (Tame.obj bp) fun o => ?_
  refine Tame.ite (Tame.ite (Tame.pure _) (Tame.bind (Tame.clumpAdd _ _) fun _ => Tame.pure _))
    (Tame.ite (Tame.bind (Tame.byId _) fun bc => Tame.ite (Tame.pure _)
      (Tame.bind (Tame.clumpAdd _ _) fun _ => Tame.pure _))
      (Tame.bind (Tame.clumpAdd _ _) fun _ => Tame.pure _))

theorem Tame.addToClumpLoop (clp : Nat) : ∀ (bids el : List Int), Tame (Bodies.addToClumpLoop clp bids el)
  | [], el => Tame.pure _
  | bid :: bids, el => by
    unfold Bodies.addToClumpLoop
    refine Tame.bind (Tame.addToClumpOne clp bid) fun r => ?_
    cases r with
    | none => exact Tame.pure _
    | some e => exact Tame.addToClumpLoop clp bids _

theorem Tame.addToClump (bids : List Int) (cid : Int) : Tame (Bodies.addToClump bids cid) := by
  unfold Bodies.addToClump
  refine Tame.bind (Tame.byId cid) fun clp => Tame.bind (Tame.obj clp) fun o => Tame.ite Tame.raise ?_
  refine Tame.bind (Tame.addToClumpLoop clp bids []) fun r => ?_
  cases r with
  | none => exact Tame.pure _
  | some el => exact Tame.bind (Tame.updateProps clp) fun _ =>
      Tame.forEach (fun id => Tame.bind (Tame.eraseF 4 id false) fun _ => Tame.pure ()) el

theorem Tame.releaseFromClump (bid cid : Int) : Tame (Bodies.releaseFromClump bid cid) := by
  unfold Bodies.releaseFromClump
  refine Tame.bind (Tame.byId bid) fun bp => Tame.bind (Tame.byId cid) fun clp =>
    Tame.bind (Tame.obj clp) fun oc => Tame.ite Tame.raise (Tame.bind (Tame.obj bp) fun ob =>
    Tame.ite (Tame.ite (Tame.bind (Tame.membersOf clp) fun ms => Tame.ite (Tame.pure _)
      (Tame.bind (Tame.clumpDel _ _) fun _ => Tame.updateProps _)) (Tame.pure _)) (Tame.pure _))

end Verif.Bodies
