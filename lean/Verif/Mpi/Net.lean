import Mathlib.Data.List.Basic
import Mathlib.Data.List.Forall2
import Mathlib.Data.Nat.Find
import Mathlib.Tactic.SplitIfs
/-!
# Processes exchanging messages

The rules of MPI used by `py/mpy.py` and `core/Subdomain.hpp`: point-to-point messages with a source, a destination and a tag; messages
with the same three are received in the order in which they were sent; a receive is posted (`MPI_Irecv`) and later waited for
(`MPI_Wait`), a blocking receive does both; a blocking send returns when the library has copied the message (`buffered`) or, without
buffering, when the receive for it has been posted.  Which of the two happens is up to the library, so both are steps of the model.

The program of a process is a list of operations, each with a level; levels have no influence on the steps, they are used to state
the order in which operations can be carried out.  Ranks without program stand for absent processes.
-/
namespace Verif.Mpi.Net

/-- one communication of a process: post a receive for a message of `q`, send to `q`, wait for the receive posted first of those
still open for `q` (`MPI_Irecv`, `MPI_Send`, `MPI_Wait`; Subdomain.hpp 124–161) -/
inductive Op (M : Type) where
  | post (q : Nat) (tag : Nat)
  | send (q : Nat) (tag : Nat) (m : M)
  | wait (q : Nat) (tag : Nat)

/-- the program of each process: operations with levels -/
abbrev Prog (M : Type) := Nat → List (Nat × Op M)

/-- state: position in each program; `chan p q tag`: messages on the way from `p` to `q`; `opened p q tag`: receives posted by `q` for
messages of `p` and not completed; `got p`: what `p` has received, with source and tag -/
structure Net (M : Type) where
  pc : Nat → Nat
  chan : Nat → Nat → Nat → List M
  opened : Nat → Nat → Nat → Nat
  got : Nat → List (Nat × Nat × M)

variable {M : Type}

/-- nothing done -/
def idle : Net M := ⟨fun _ => 0, fun _ _ _ => [], fun _ _ _ => 0, fun _ => []⟩

/-- function update at one argument -/
def upd {α : Type} (f : Nat → α) (p : Nat) (a : α) : Nat → α := fun x => if x = p then a else f x

/-- function update at three arguments -/
def upd3 {α : Type} (f : Nat → Nat → Nat → α) (p q t : Nat) (a : α) : Nat → Nat → Nat → α :=
  fun x y z => if x = p ∧ y = q ∧ z = t then a else f x y z

/-- one step of process `p`; `buffered = false` excludes that the library buffers a message -/
inductive Step (prog : Prog M) (buffered : Bool) : Net M → Net M → Prop
  | post {s : Net M} {p q tag l : Nat} (h : (prog p)[s.pc p]? = some (l, .post q tag)) :
      Step prog buffered s { s with pc := upd s.pc p (s.pc p + 1), opened := upd3 s.opened q p tag (s.opened q p tag + 1) }
  | send {s : Net M} {p q tag l : Nat} {m : M} (h : (prog p)[s.pc p]? = some (l, .send q tag m))
      (hb : buffered = true ∨ (s.chan p q tag).length < s.opened p q tag) :
      Step prog buffered s { s with pc := upd s.pc p (s.pc p + 1), chan := upd3 s.chan p q tag (s.chan p q tag ++ [m]) }
  | wait {s : Net M} {p q tag l : Nat} {m : M} {r : List M} (h : (prog p)[s.pc p]? = some (l, .wait q tag)) (hc : s.chan q p tag = m :: r) :
      Step prog buffered s { s with
        pc := upd s.pc p (s.pc p + 1), chan := upd3 s.chan q p tag r
        opened := upd3 s.opened q p tag (s.opened q p tag - 1), got := upd s.got p (s.got p ++ [(q, tag, m)]) }

/-- what can happen -/
inductive Reach (prog : Prog M) (buffered : Bool) : Net M → Prop
  | start : Reach prog buffered idle
  | step {s s' : Net M} (h : Reach prog buffered s) (e : Step prog buffered s s') : Reach prog buffered s'

/-- process `p` has carried out its program -/
def Done (prog : Prog M) (s : Net M) (p : Nat) : Prop := (prog p).length ≤ s.pc p

/-! ## Sends, posted receives and waits in a program -/

/-- the messages a list of operations sends to `q` with `tag`, with levels -/
def sends (q tag : Nat) (l : List (Nat × Op M)) : List (Nat × M) :=
  l.filterMap fun x => match x.2 with
    | .send q' tag' m => if q' = q ∧ tag' = tag then some (x.1, m) else none
    | _ => none

/-- levels of the receives it posts for messages of `q` -/
def posts (q tag : Nat) (l : List (Nat × Op M)) : List Nat :=
  l.filterMap fun x => match x.2 with
    | .post q' tag' => if q' = q ∧ tag' = tag then some x.1 else none
    | _ => none

/-- levels of the waits for messages of `q` -/
def waits (q tag : Nat) (l : List (Nat × Op M)) : List Nat :=
  l.filterMap fun x => match x.2 with
    | .wait q' tag' => if q' = q ∧ tag' = tag then some x.1 else none
    | _ => none

@[simp] theorem sends_append (q tag : Nat) (a b : List (Nat × Op M)) : sends q tag (a ++ b) = sends q tag a ++ sends q tag b := List.filterMap_append
@[simp] theorem posts_append (q tag : Nat) (a b : List (Nat × Op M)) : posts q tag (a ++ b) = posts q tag a ++ posts q tag b := List.filterMap_append
@[simp] theorem waits_append (q tag : Nat) (a b : List (Nat × Op M)) : waits q tag (a ++ b) = waits q tag a ++ waits q tag b := List.filterMap_append

theorem take_succ' {α : Type} {l : List α} {i : Nat} {a : α} (h : l[i]? = some a) : l.take (i + 1) = l.take i ++ [a] := by
  rw [List.take_add_one, h]; rfl

/-- operations carried out by `p` -/
def past (prog : Prog M) (s : Net M) (p : Nat) : List (Nat × Op M) := (prog p).take (s.pc p)

/-- what holds in every state that can be reached -/
structure Inv (prog : Prog M) (s : Net M) : Prop where
  chan : ∀ p q t, s.chan p q t = ((sends q t (past prog s p)).map (·.2)).drop (waits p t (past prog s q)).length
  le : ∀ p q t, (waits p t (past prog s q)).length ≤ (sends q t (past prog s p)).length
  got : ∀ p q t, (s.got p).filterMap (fun x => if x.1 = q ∧ x.2.1 = t then some x.2.2 else none) =
    ((sends p t (past prog s q)).map (·.2)).take (waits q t (past prog s p)).length

theorem past_upd {prog : Prog M} {s s' : Net M} {p : Nat} {o : Nat × Op M} (hp : s'.pc = upd s.pc p (s.pc p + 1)) (h : (prog p)[s.pc p]? = some o) (x : Nat) :
    past prog s' x = if x = p then past prog s p ++ [o] else past prog s x := by
  unfold past
  rw [hp]
  unfold upd
  by_cases e : x = p
  · subst e; rw [if_pos rfl, if_pos rfl, take_succ' h]
  · rw [if_neg e, if_neg e]

theorem Inv.step {prog : Prog M} {buf : Bool} {s s' : Net M} (hi : Inv prog s) (e : Step prog buf s s') : Inv prog s' := by
  cases e with
  | @post p q tag l h =>
    have hp := fun x => past_upd (s' := { s with pc := upd s.pc p (s.pc p + 1), opened := upd3 s.opened q p tag (s.opened q p tag + 1) }) rfl h x
    have hs : ∀ x a b, sends a b (past prog { s with pc := upd s.pc p (s.pc p + 1), opened := upd3 s.opened q p tag (s.opened q p tag + 1) } x) =
        sends a b (past prog s x) := by
      intro x a b; rw [hp]; split_ifs with h1
      · subst h1; simp [sends]
      · rfl
    have hw : ∀ x a b, waits a b (past prog { s with pc := upd s.pc p (s.pc p + 1), opened := upd3 s.opened q p tag (s.opened q p tag + 1) } x) =
        waits a b (past prog s x) := by
      intro x a b; rw [hp]; split_ifs with h1
      · subst h1; simp [waits]
      · rfl
    exact ⟨fun a b c => by rw [hs, hw]; exact hi.chan a b c, fun a b c => by rw [hs, hw]; exact hi.le a b c, fun a b c => by rw [hs, hw]; exact hi.got a b c⟩
  | @send p q tag l m h hb =>
    obtain ⟨s', hs'⟩ : ∃ s', s' = { s with pc := upd s.pc p (s.pc p + 1), chan := upd3 s.chan p q tag (s.chan p q tag ++ [m]) } := ⟨_, rfl⟩
    rw [← hs']
    have hp := fun x => past_upd (s' := s') (by rw [hs']) h x
    have hs : ∀ x a b, sends a b (past prog s' x) = if x = p ∧ a = q ∧ b = tag then sends q tag (past prog s p) ++ [(l, m)] else sends a b (past prog s x) := by
      intro x a b
      rw [hp]
      by_cases h1 : x = p
      · subst h1
        by_cases h2 : a = q ∧ b = tag
        · obtain ⟨rfl, rfl⟩ := h2; simp [sends]
        · rw [if_pos rfl, if_neg (by simpa using h2)]
          have h3 : ¬ (q = a ∧ tag = b) := fun h => h2 ⟨h.1.symm, h.2.symm⟩
          simp [sends, h3]
      · rw [if_neg h1, if_neg (by simp [h1])]
    have hw : ∀ x a b, waits a b (past prog s' x) = waits a b (past prog s x) := by
      intro x a b; rw [hp]; split_ifs with h1
      · subst h1; simp [waits]
      · rfl
    have hgot : s'.got = s.got := by rw [hs']
    have hch : s'.chan = upd3 s.chan p q tag (s.chan p q tag ++ [m]) := by rw [hs']
    refine ⟨fun a b c => ?_, fun a b c => ?_, fun a b c => ?_⟩
    · rw [hs, hw, hch]
      unfold upd3
      by_cases h1 : a = p ∧ b = q ∧ c = tag
      · obtain ⟨rfl, rfl, rfl⟩ := h1
        rw [if_pos ⟨rfl, rfl, rfl⟩, if_pos ⟨rfl, rfl, rfl⟩, hi.chan, List.map_append, List.drop_append_of_le_length (by rw [List.length_map]; exact hi.le _ _ _)]
        rfl
      · rw [if_neg h1, if_neg h1]; exact hi.chan a b c
    · rw [hs, hw]
      split_ifs with h1
      · obtain ⟨rfl, rfl, rfl⟩ := h1
        have := hi.le a b c
        rw [List.length_append]; omega
      · exact hi.le a b c
    · rw [hs, hw, hgot, hi.got]
      split_ifs with h1
      · obtain ⟨rfl, rfl, rfl⟩ := h1
        rw [List.map_append, List.take_append_of_le_length (by rw [List.length_map]; exact hi.le _ _ _)]
      · rfl
  | @wait p q tag l m r h hc =>
    obtain ⟨s', hs'⟩ : ∃ s', s' = { s with
        pc := upd s.pc p (s.pc p + 1), chan := upd3 s.chan q p tag r
        opened := upd3 s.opened q p tag (s.opened q p tag - 1), got := upd s.got p (s.got p ++ [(q, tag, m)]) } := ⟨_, rfl⟩
    rw [← hs']
    have hp := fun x => past_upd (s' := s') (by rw [hs']) h x
    have hs : ∀ x a b, sends a b (past prog s' x) = sends a b (past prog s x) := by
      intro x a b; rw [hp]; split_ifs with h1
      · subst h1; simp [sends]
      · rfl
    have hw : ∀ x a b, waits a b (past prog s' x) = if x = p ∧ a = q ∧ b = tag then waits q tag (past prog s p) ++ [l] else waits a b (past prog s x) := by
      intro x a b
      rw [hp]
      by_cases h1 : x = p
      · subst h1
        by_cases h2 : a = q ∧ b = tag
        · obtain ⟨rfl, rfl⟩ := h2; simp [waits]
        · rw [if_pos rfl, if_neg (by simpa using h2)]
          have h3 : ¬ (q = a ∧ tag = b) := fun h => h2 ⟨h.1.symm, h.2.symm⟩
          simp [waits, h3]
      · rw [if_neg h1, if_neg (by simp [h1])]
    have hgot : s'.got = upd s.got p (s.got p ++ [(q, tag, m)]) := by rw [hs']
    have hch : s'.chan = upd3 s.chan q p tag r := by rw [hs']
    have hcq := hi.chan q p tag
    rw [hc] at hcq
    have hlt : (waits q tag (past prog s p)).length < ((sends p tag (past prog s q)).map (·.2)).length := by
      by_contra hcon
      rw [List.drop_eq_nil_of_le (by omega)] at hcq; cases hcq
    have hdrop := List.drop_eq_getElem_cons hlt
    rw [hdrop] at hcq
    injection hcq with hm hr
    refine ⟨fun a b c => ?_, fun a b c => ?_, fun a b c => ?_⟩
    · rw [hs, hw, hch]
      unfold upd3
      by_cases h1 : a = q ∧ b = p ∧ c = tag
      · obtain ⟨rfl, rfl, rfl⟩ := h1
        rw [if_pos ⟨rfl, rfl, rfl⟩, if_pos ⟨rfl, rfl, rfl⟩, hr, List.length_append]; rfl
      · rw [if_neg h1, if_neg (fun h => h1 ⟨h.2.1, h.1, h.2.2⟩)]; exact hi.chan a b c
    · rw [hs, hw]
      split_ifs with h1
      · obtain ⟨rfl, rfl, rfl⟩ := h1
        rw [List.length_map] at hlt
        rw [List.length_append]; exact hlt
      · exact hi.le a b c
    · rw [hs, hw, hgot]
      unfold upd
      by_cases h1 : a = p
      · subst h1
        rw [if_pos rfl, List.filterMap_append, hi.got]
        by_cases h2 : b = q ∧ c = tag
        · obtain ⟨rfl, rfl⟩ := h2
          simp only [and_self, if_true]
          rw [List.length_append, List.length_singleton, List.take_add_one, List.getElem?_eq_getElem hlt, ← hm]
          simp
        · have h3 : ¬ (q = b ∧ tag = c) := fun h => h2 ⟨h.1.symm, h.2.symm⟩
          simp [h2, h3]
      · rw [if_neg h1, if_neg (fun h => h1 h.1), hi.got]

theorem Reach.inv {prog : Prog M} {buf : Bool} {s : Net M} (h : Reach prog buf s) : Inv prog s := by
  induction h with
  | start => exact ⟨fun p q t => by simp [idle, past, sends], fun p q t => by simp [idle, past, waits], fun p q t => by simp [idle, past, waits]⟩
  | step _ e ih => exact ih.step e

/-- more receives are open than the waits have consumed -/
structure OpenInv (prog : Prog M) (s : Net M) : Prop where
  opened : ∀ p q t, (posts p t (past prog s q)).length ≤ s.opened p q t + (waits p t (past prog s q)).length

theorem OpenInv.step {prog : Prog M} {buf : Bool} {s s' : Net M} (hi : OpenInv prog s) (e : Step prog buf s s') : OpenInv prog s' := by
  cases e with
  | @post p q tag l h =>
    obtain ⟨s', hs'⟩ : ∃ s', s' = { s with pc := upd s.pc p (s.pc p + 1), opened := upd3 s.opened q p tag (s.opened q p tag + 1) } := ⟨_, rfl⟩
    rw [← hs']
    have hp := fun x => past_upd (s' := s') (by rw [hs']) h x
    refine ⟨fun a b c => ?_⟩
    have := hi.opened a b c
    have ho : s'.opened = upd3 s.opened q p tag (s.opened q p tag + 1) := by rw [hs']
    rw [hp, ho]
    unfold upd3
    by_cases h1 : b = p
    · subst h1
      rw [if_pos rfl, posts_append, waits_append, List.length_append, List.length_append]
      by_cases h2 : q = a ∧ tag = c
      · obtain ⟨rfl, rfl⟩ := h2; simp [posts, waits] at *; omega
      · have h3 : ¬ (a = q ∧ b = b ∧ c = tag) := fun h => h2 ⟨h.1.symm, h.2.2.symm⟩
        rw [if_neg h3]; simp [posts, waits, h2] at *; omega
    · rw [if_neg h1, if_neg (by simp [h1])]; exact this
  | @send p q tag l m h hb =>
    obtain ⟨s', hs'⟩ : ∃ s', s' = { s with pc := upd s.pc p (s.pc p + 1), chan := upd3 s.chan p q tag (s.chan p q tag ++ [m]) } := ⟨_, rfl⟩
    rw [← hs']
    have hp := fun x => past_upd (s' := s') (by rw [hs']) h x
    refine ⟨fun a b c => ?_⟩
    have := hi.opened a b c
    have ho : s'.opened = s.opened := by rw [hs']
    rw [hp, ho]
    split_ifs with h1
    · subst h1; simp [posts, waits] at *; omega
    · exact this
  | @wait p q tag l m r h hc =>
    obtain ⟨s', hs'⟩ : ∃ s', s' = { s with
        pc := upd s.pc p (s.pc p + 1), chan := upd3 s.chan q p tag r
        opened := upd3 s.opened q p tag (s.opened q p tag - 1), got := upd s.got p (s.got p ++ [(q, tag, m)]) } := ⟨_, rfl⟩
    rw [← hs']
    have hp := fun x => past_upd (s' := s') (by rw [hs']) h x
    refine ⟨fun a b c => ?_⟩
    have := hi.opened a b c
    have ho : s'.opened = upd3 s.opened q p tag (s.opened q p tag - 1) := by rw [hs']
    rw [hp, ho]
    unfold upd3
    by_cases h1 : b = p
    · subst h1
      rw [if_pos rfl, posts_append, waits_append, List.length_append, List.length_append]
      by_cases h2 : q = a ∧ tag = c
      · obtain ⟨rfl, rfl⟩ := h2; simp [posts, waits] at *; omega
      · have h3 : ¬ (a = q ∧ b = b ∧ c = tag) := fun h => h2 ⟨h.1.symm, h.2.2.symm⟩
        rw [if_neg h3]; simp [posts, waits, h2] at *; omega
    · rw [if_neg h1, if_neg (by simp [h1])]; exact this

theorem Reach.openInv {prog : Prog M} {buf : Bool} {s : Net M} (h : Reach prog buf s) : OpenInv prog s := by
  induction h with
  | start => exact ⟨fun p q t => by simp [idle, past, posts]⟩
  | step _ e ih => exact ih.step e

/-! ## No deadlock -/

/-- the programs fit together: levels do not decrease along a program, and for each source, destination and tag there are as many
posted receives, sends and waits, the levels of the k-th of each increasing in this order -/
structure Matched (prog : Prog M) : Prop where
  mono : ∀ p, (prog p).Pairwise fun a b => a.1 ≤ b.1
  post_send : ∀ p q t, List.Forall₂ (· < ·) (posts p t (prog q)) ((sends q t (prog p)).map (·.1))
  send_wait : ∀ p q t, List.Forall₂ (· < ·) ((sends q t (prog p)).map (·.1)) (waits p t (prog q))

theorem mem_posts {q tag l : Nat} {o : List (Nat × Op M)} (h : l ∈ posts q tag o) : (l, Op.post q tag) ∈ o := by
  unfold posts at h
  rw [List.mem_filterMap] at h
  obtain ⟨⟨l', op⟩, h1, h2⟩ := h
  cases op with
  | post q' t' =>
    dsimp only at h2
    split_ifs at h2 with h3
    · injection h2 with h2; obtain ⟨rfl, rfl⟩ := h3; subst h2; exact h1
  | send _ _ _ => cases h2
  | wait _ _ => cases h2

theorem mem_sends {q tag l : Nat} {m : M} {o : List (Nat × Op M)} (h : (l, m) ∈ sends q tag o) : (l, Op.send q tag m) ∈ o := by
  unfold sends at h
  rw [List.mem_filterMap] at h
  obtain ⟨⟨l', op⟩, h1, h2⟩ := h
  cases op with
  | send q' t' m' =>
    dsimp only at h2
    split_ifs at h2 with h3
    · injection h2 with h2; injection h2 with h4 h5; obtain ⟨rfl, rfl⟩ := h3; subst h4 h5; exact h1
  | post _ _ => cases h2
  | wait _ _ => cases h2

/-- operations below the level of everything that is next have been carried out -/
theorem past_of_level {prog : Prog M} {s : Net M} (hmono : ∀ p, (prog p).Pairwise fun a b => a.1 ≤ b.1) {q L : Nat} (hmin : ∀ o, (prog q)[s.pc q]? = some o → L ≤ o.1)
    {x : Nat × Op M} (hx : x ∈ (prog q).drop (s.pc q)) : L ≤ x.1 := by
  cases hd : (prog q).drop (s.pc q) with
  | nil => rw [hd] at hx; cases hx
  | cons o r =>
    have h0 : (prog q)[s.pc q]? = some o := by
      have := List.getElem?_drop (xs := prog q) (i := s.pc q) (j := 0)
      rw [hd, Nat.add_zero] at this; exact this.symm
    have hpw : ((prog q).drop (s.pc q)).Pairwise fun a b => a.1 ≤ b.1 := (hmono q).sublist (List.drop_sublist _ _)
    rw [hd] at hx hpw
    rcases List.mem_cons.mp hx with rfl | hx
    · exact hmin x h0
    · exact Nat.le_trans (hmin o h0) ((List.pairwise_cons.mp hpw).1 x hx)

theorem split_prog (prog : Prog M) (s : Net M) (p : Nat) : prog p = past prog s p ++ (prog p).drop (s.pc p) := (List.take_append_drop _ _).symm

theorem rest_head {prog : Prog M} {s : Net M} {p : Nat} {o : Nat × Op M} (h : (prog p)[s.pc p]? = some o) :
    (prog p).drop (s.pc p) = o :: (prog p).drop (s.pc p + 1) := by
  obtain ⟨h1, h2⟩ := List.getElem?_eq_some_iff.mp h
  rw [← h2]; exact List.drop_eq_getElem_cons h1

/-- if the programs fit together, then in every state that can be reached in which some process has not finished some process can go on
without any message being buffered -/
theorem progress {prog : Prog M} (hm : Matched prog) {buf : Bool} {s : Net M} (h : Reach prog buf s) {p : Nat} (hp : ¬ Done prog s p) :
    ∃ s', Step prog false s s' := by
  classical
  have hi := h.inv
  have ho := h.openInv
  -- the lowest level of a next operation
  have hex : ∃ L p o, (prog p)[s.pc p]? = some o ∧ o.1 = L := by
    unfold Done at hp
    exact ⟨_, p, (prog p)[s.pc p]'(by omega), List.getElem?_eq_getElem _, rfl⟩
  obtain ⟨p, o, hpo, hL⟩ := Nat.find_spec hex
  have hmin : ∀ q o', (prog q)[s.pc q]? = some o' → o.1 ≤ o'.1 := by
    intro q o' ho'
    rw [hL]; exact Nat.find_min' hex ⟨q, o', ho', rfl⟩
  obtain ⟨l, op⟩ := o
  cases op with
  | post q tag => exact ⟨_, Step.post hpo⟩
  | send q tag m =>
    refine ⟨_, Step.send hpo (Or.inr ?_)⟩
    -- the receive for this message has a lower level
    have hf := hm.post_send p q tag
    have hk : ((sends q tag (prog p)).map (·.1))[(sends q tag (past prog s p)).length]? = some l := by
      rw [split_prog prog s p, rest_head hpo, sends_append, List.map_append]
      rw [List.getElem?_append_right (by rw [List.length_map])]
      simp [sends]
    have hlt : (sends q tag (past prog s p)).length < (posts p tag (past prog s q)).length := by
      by_contra hc
      have hlen : (sends q tag (past prog s p)).length < (posts p tag (prog q)).length := by
        rw [hf.length_eq]
        by_contra h2
        rw [List.getElem?_eq_none (by omega)] at hk; cases hk
      have hlev := List.Forall₂.get hf hlen (by rw [← hf.length_eq]; exact hlen)
      rw [List.getElem?_eq_getElem (by rw [← hf.length_eq]; exact hlen)] at hk
      injection hk with hk
      simp only [List.get_eq_getElem] at hlev
      rw [hk] at hlev
      have hmem : (posts p tag (prog q))[(sends q tag (past prog s p)).length] ∈ posts p tag ((prog q).drop (s.pc q)) := by
        have e : posts p tag (prog q) = posts p tag (past prog s q) ++ posts p tag ((prog q).drop (s.pc q)) := by
          rw [← posts_append, ← split_prog]
        simp only [e]
        rw [List.getElem_append_right (by omega)]
        exact List.getElem_mem _
      have := past_of_level hm.mono (hmin q) (mem_posts hmem)
      dsimp only at this
      omega
    have h1 := hi.chan p q tag
    have h2 := ho.opened p q tag
    have h3 := hi.le p q tag
    rw [h1, List.length_drop, List.length_map]
    omega
  | wait q tag =>
    have hf := hm.send_wait q p tag
    have hk : (waits q tag (prog p))[(waits q tag (past prog s p)).length]? = some l := by
      rw [split_prog prog s p, rest_head hpo, waits_append]
      rw [List.getElem?_append_right (by omega)]
      simp [waits]
    have hlt : (waits q tag (past prog s p)).length < (sends p tag (past prog s q)).length := by
      by_contra hc
      have hlen : (waits q tag (past prog s p)).length < (waits q tag (prog p)).length := by
        by_contra h2
        rw [List.getElem?_eq_none (by omega)] at hk; cases hk
      have hlen' : (waits q tag (past prog s p)).length < ((sends p tag (prog q)).map (·.1)).length := by rw [hf.length_eq]; exact hlen
      have hlev := List.Forall₂.get hf hlen' hlen
      rw [List.getElem?_eq_getElem hlen] at hk
      injection hk with hk
      simp only [List.get_eq_getElem] at hlev
      rw [hk] at hlev
      have hlen2 : (waits q tag (past prog s p)).length < (sends p tag (prog q)).length := by rwa [List.length_map] at hlen'
      have hmem : (sends p tag (prog q))[(waits q tag (past prog s p)).length] ∈ sends p tag ((prog q).drop (s.pc q)) := by
        have e : sends p tag (prog q) = sends p tag (past prog s q) ++ sends p tag ((prog q).drop (s.pc q)) := by
          rw [← sends_append, ← split_prog]
        simp only [e]
        rw [List.getElem_append_right (by omega)]
        exact List.getElem_mem _
      have := past_of_level hm.mono (hmin q) (mem_sends hmem)
      rw [List.getElem_map] at hlev
      simp only [List.get_eq_getElem] at this
      omega
    have h1 := hi.chan q p tag
    cases hc : s.chan q p tag with
    | nil =>
      rw [hc] at h1
      have := congrArg List.length h1
      rw [List.length_drop, List.length_map] at this
      simp at this; omega
    | cons m r => exact ⟨_, Step.wait hpo hc⟩

/-- every step advances one process by one operation of its program, so that there are at most as many steps as operations -/
theorem Step.advance {prog : Prog M} {buf : Bool} {s s' : Net M} (e : Step prog buf s s') :
    ∃ p, s.pc p < (prog p).length ∧ s'.pc p = s.pc p + 1 ∧ ∀ q, q ≠ p → s'.pc q = s.pc q := by
  have key : ∀ p : Nat, ∀ o, (prog p)[s.pc p]? = some o → s.pc p < (prog p).length := fun p o h => (List.getElem?_eq_some_iff.mp h).1
  cases e with
  | @post p q tag l h => exact ⟨p, key p _ h, by simp [upd], fun x hx => by simp [upd, hx]⟩
  | @send p q tag l m h hb => exact ⟨p, key p _ h, by simp [upd], fun x hx => by simp [upd, hx]⟩
  | @wait p q tag l m r h hc => exact ⟨p, key p _ h, by simp [upd], fun x hx => by simp [upd, hx]⟩

/-- what a process that has carried out its program has received from `q` with a tag: all `q` sends it with that tag, in order -/
theorem received {prog : Prog M} (hm : Matched prog) {buf : Bool} {s : Net M} (h : Reach prog buf s) {p : Nat} (hp : Done prog s p) (q t : Nat) :
    (s.got p).filterMap (fun x => if x.1 = q ∧ x.2.1 = t then some x.2.2 else none) = (sends p t (prog q)).map (·.2) := by
  have hpast : past prog s p = prog p := by unfold past; exact List.take_of_length_le hp
  have hi := h.inv
  rw [hi.got, hpast]
  have h1 := hi.le q p t
  rw [hpast] at h1
  have h2 := (hm.send_wait q p t).length_eq
  rw [List.length_map] at h2
  have h3 : sends p t (prog q) = sends p t (past prog s q) ++ sends p t ((prog q).drop (s.pc q)) := by rw [← sends_append, ← split_prog]
  have h4 := congrArg List.length h3
  rw [List.length_append] at h4
  have h5 : sends p t ((prog q).drop (s.pc q)) = [] := List.eq_nil_of_length_eq_zero (by omega)
  rw [h3, h5, List.append_nil, List.take_of_length_le (by rw [List.length_map]; rw [h5] at h4; simp at h4; omega)]

/-- the message that a wait delivers: the one with the number of waits before it -/
theorem nth_received {prog : Prog M} {buf : Bool} {s : Net M} (h : Reach prog buf s) (p q t k : Nat) (hk : k < (waits q t (past prog s p)).length) :
    ((s.got p).filterMap (fun x => if x.1 = q ∧ x.2.1 = t then some x.2.2 else none))[k]? = ((sends p t (prog q)).map (·.2))[k]? := by
  have hi := h.inv
  have h1 := hi.le q p t
  have h3 : sends p t (prog q) = sends p t (past prog s q) ++ sends p t ((prog q).drop (s.pc q)) := by rw [← sends_append, ← split_prog]
  rw [hi.got, h3, List.map_append, List.getElem?_append_left (by rw [List.length_map]; omega), List.getElem?_take_of_lt hk]

/-! ## With buffering -/

/-- levels do not decrease along a program, and every wait has a send of lower level: the k-th wait the k-th send -/
structure Fed (prog : Prog M) : Prop where
  mono : ∀ p, (prog p).Pairwise fun a b => a.1 ≤ b.1
  fed : ∀ p q t k l : Nat, (waits p t (prog q))[k]? = some l → ∃ x : Nat × M, (sends q t (prog p))[k]? = some x ∧ x.1 < l

/-- number of the wait that comes next -/
theorem wait_number {prog : Prog M} {s : Net M} {p q tag l : Nat} (hpo : (prog p)[s.pc p]? = some (l, .wait q tag)) :
    (waits q tag (prog p))[(waits q tag (past prog s p)).length]? = some l := by
  rw [split_prog prog s p, rest_head hpo, waits_append]
  rw [List.getElem?_append_right (by omega)]
  simp [waits]

/-- if messages are buffered, it is enough that every wait has its send -/
theorem progress_buffered {prog : Prog M} (hm : Fed prog) {s : Net M} (h : Reach prog true s) {p : Nat} (hp : ¬ Done prog s p) :
    ∃ s', Step prog true s s' := by
  classical
  have hi := h.inv
  have hex : ∃ L p o, (prog p)[s.pc p]? = some o ∧ o.1 = L := by
    unfold Done at hp
    exact ⟨_, p, (prog p)[s.pc p]'(by omega), List.getElem?_eq_getElem _, rfl⟩
  obtain ⟨p, o, hpo, hL⟩ := Nat.find_spec hex
  have hmin : ∀ q o', (prog q)[s.pc q]? = some o' → o.1 ≤ o'.1 := by
    intro q o' ho'
    rw [hL]; exact Nat.find_min' hex ⟨q, o', ho', rfl⟩
  obtain ⟨l, op⟩ := o
  cases op with
  | post q tag => exact ⟨_, Step.post hpo⟩
  | send q tag m => exact ⟨_, Step.send hpo (Or.inl rfl)⟩
  | wait q tag =>
    obtain ⟨x, hx, hl⟩ := hm.fed q p tag _ l (wait_number hpo)
    have hlt : (waits q tag (past prog s p)).length < (sends p tag (past prog s q)).length := by
      by_contra hc
      have hmem : x ∈ sends p tag ((prog q).drop (s.pc q)) := by
        rw [split_prog prog s q, sends_append, List.getElem?_append_right (by omega)] at hx
        exact List.mem_of_getElem? hx
      have := past_of_level hm.mono (hmin q) (mem_sends (l := x.1) (m := x.2) hmem)
      dsimp only at this
      omega
    have h1 := hi.chan q p tag
    cases hc : s.chan q p tag with
    | nil =>
      rw [hc] at h1
      have := congrArg List.length h1
      rw [List.length_drop, List.length_map] at this
      simp at this; omega
    | cons m r => exact ⟨_, Step.wait hpo hc⟩

/-- what a wait delivers: the message with the number of the wait -/
theorem wait_delivers_at {prog : Prog M} {buf : Bool} {s s' : Net M} (h : Reach prog buf s) {p q tag l : Nat}
    (hpo : (prog p)[s.pc p]? = some (l, .wait q tag)) (e : Step prog buf s s') (hpc : s'.pc p = s.pc p + 1) :
    ∃ x : Nat × M, (sends p tag (prog q))[(waits q tag (past prog s p)).length]? = some x ∧ s'.got p = s.got p ++ [(q, tag, x.2)] := by
  have key : ∀ p', upd s.pc p' (s.pc p' + 1) p = s.pc p + 1 → p' = p := by
    intro p' h'
    unfold upd at h'
    by_contra hne
    rw [if_neg (fun e => hne e.symm)] at h'; omega
  have hi := h.inv
  cases e with
  | post h' =>
    rw [key _ hpc, hpo] at h'; cases h'
  | send h' _ =>
    rw [key _ hpc, hpo] at h'; cases h'
  | @wait p' q' tag' l' m r h' hc =>
    have := key _ hpc; subst this
    rw [hpo] at h'; injection h' with h'; injection h' with h1 h2; injection h2 with h2 h3; subst h1 h2 h3
    have h1 := hi.chan q p' tag
    rw [hc] at h1
    have h4 : (((sends p' tag (past prog s q)).map (·.2)))[(waits q tag (past prog s p')).length]? = some m := by
      have := List.getElem?_drop (xs := (sends p' tag (past prog s q)).map (·.2)) (i := (waits q tag (past prog s p')).length) (j := 0)
      rw [← h1, Nat.add_zero] at this; exact this.symm
    rw [List.getElem?_map] at h4
    obtain ⟨x, hx, rfl⟩ := Option.map_eq_some_iff.mp h4
    refine ⟨x, ?_, by simp [upd]⟩
    rw [split_prog prog s q, sends_append]
    exact List.getElem?_append_left (List.getElem?_eq_some_iff.mp hx).1 ▸ hx

/-- what a wait delivers -/
theorem wait_delivers {prog : Prog M} {buf : Bool} {s s' : Net M} (h : Reach prog buf s) {p q tag l : Nat}
    (hpo : (prog p)[s.pc p]? = some (l, .wait q tag)) (e : Step prog buf s s') (hpc : s'.pc p = s.pc p + 1) :
    ∃ (k : Nat) (x : Nat × M), (waits q tag (prog p))[k]? = some l ∧ (sends p tag (prog q))[k]? = some x ∧ s'.got p = s.got p ++ [(q, tag, x.2)] := by
  obtain ⟨x, h1, h2⟩ := wait_delivers_at h hpo e hpc
  exact ⟨_, x, wait_number hpo, h1, h2⟩

/-- no more receives are open than have been posted -/
theorem Reach.opened_le {prog : Prog M} {buf : Bool} {s : Net M} (h : Reach prog buf s) (p q t : Nat) :
    s.opened p q t ≤ (posts p t (past prog s q)).length := by
  induction h with
  | start => simp [idle]
  | @step s s' _ e ih =>
    cases e with
    | @post p' q' tag l h =>
      rw [past_upd (s := s) rfl h]
      dsimp only
      unfold upd3
      by_cases e1 : q = p'
      · subst e1
        rw [if_pos rfl, posts_append, List.length_append]
        by_cases e2 : p = q' ∧ q = q ∧ t = tag
        · obtain ⟨rfl, -, rfl⟩ := e2
          simp [posts] at ih ⊢; omega
        · rw [if_neg e2]; omega
      · rw [if_neg (fun hc => e1 hc.2.1), if_neg e1]; exact ih
    | @send p' q' tag l m h hb =>
      rw [past_upd (s := s) rfl h]
      dsimp only
      split_ifs with e1
      · subst e1; rw [posts_append, List.length_append]; omega
      · exact ih
    | @wait p' q' tag l m r h hc =>
      rw [past_upd (s := s) rfl h]
      dsimp only
      have h1 : upd3 s.opened q' p' tag (s.opened q' p' tag - 1) p q t ≤ s.opened p q t := by
        unfold upd3
        split_ifs with e1
        · obtain ⟨rfl, rfl, rfl⟩ := e1; omega
        · exact Nat.le_refl _
      refine Nat.le_trans h1 ?_
      split_ifs with e1
      · subst e1; rw [posts_append, List.length_append]; omega
      · exact ih

end Verif.Mpi.Net
