import Verif.Dispatch.Lemmas
/-!
# C20–C22, C64, C65: properties of the functor dispatch

Specification vocabulary: `H.up c k` is the class `k` levels above `c`; `Desc H a c` says that class `a` is `c` or
derives from it.
-/
namespace Verif.Dispatch
open Verif

/-! ## C20: one argument -/

variable {F : Type}

/-- the functor registered last for class `c` -/
def lastReg : List (Nat × F) → Nat → Option F
  | [], _ => none
  | (a, f) :: r, c => (lastReg r c).or (if a = c then some f else none)

/-- functor of the nearest class among `c` and its ancestors -/
def nearest (H : Hier) (reg : Nat → Option F) (c : Nat) : Option F := (c :: H.anc c).findSome? reg

def adds1 (H : Hier) : D1 F → List (Nat × F) → Res (D1 F)
  | d, [] => .ok d
  | d, (c, f) :: r => match add1 H d c f with
    | .ok d' => adds1 H d' r
    | .throws => .throws
    | .ub => .ub

/-- a sequence of lookups -/
def looks1 (H : Hier) : D1 F → List Nat → Res (D1 F)
  | d, [] => .ok d
  | d, c :: r => match locate1 H d c with
    | .ok (d', _) => looks1 H d' r
    | .throws => .throws
    | .ub => .ub

/-- every entry is a registered functor or a copy of the nearest one -/
def Inv1 (H : Hier) (reg : Nat → Option F) (d : D1 F) : Prop :=
  d.len = H.n ∧ ∀ c, c < H.n → d.cb c = reg c ∨ (reg c = none ∧ d.cb c = nearest H reg c)

theorem lastReg_snoc (l : List (Nat × F)) (c : Nat) (f : F) (b : Nat) :
    lastReg (l ++ [(c, f)]) b = if c = b then some f else lastReg l b := by
  induction l with
  | nil => simp only [List.nil_append, lastReg]; split <;> rfl
  | cons x xs ih =>
    obtain ⟨a, g⟩ := x
    simp only [List.cons_append, lastReg, ih]
    split <;> simp

theorem adds1_ok (H : Hier) (r : List (Nat × F)) (hr : ∀ p ∈ r, p.1 < H.n) : ∀ (done : List (Nat × F)) (d : D1 F),
    (done = [] ∧ d = clear1 ∨ d.len = H.n ∧ ∀ c, c < H.n → d.cb c = lastReg done c) →
    ∃ d', adds1 H d r = .ok d' ∧
      (done ++ r = [] ∧ d' = clear1 ∨ d'.len = H.n ∧ ∀ c, c < H.n → d'.cb c = lastReg (done ++ r) c) := by
  induction r with
  | nil => intro done d h; exact ⟨d, rfl, by simpa using h⟩
  | cons p r ih =>
    intro done d h
    obtain ⟨c, f⟩ := p
    have hc : c < H.n := hr (c, f) (List.mem_cons_self ..)
    simp only [adds1, add1, if_pos hc]
    have key : ∀ b, b < H.n → (if b < d.len then d.cb b else none) = lastReg done b := by
      intro b hb
      rcases h with ⟨rfl, rfl⟩ | ⟨h1, h2⟩
      · simp [clear1, lastReg]
      · rw [if_pos (by omega)]; exact h2 b hb
    have := ih (fun p hp => hr p (List.mem_cons_of_mem _ hp)) (done ++ [(c, f)])
      { d with cb := upd1 (fun i => if i < d.len then d.cb i else none) c (some f), len := H.n }
      (Or.inr ⟨rfl, fun b hb => by
        rw [lastReg_snoc]
        simp only [upd1]
        by_cases hbc : b = c
        · simp [hbc]
        · rw [if_neg hbc, if_neg (show ¬ c = b from fun e => hbc e.symm)]; exact key b hb⟩)
    simpa using this

theorem walk1_spec (H : Hier) (reg : Nat → Option F) (d : D1 F) (hI : Inv1 H reg d) (c : Nat) (hc : c < H.n)
    (hreg : reg c = none) : ∀ l : List Nat, (l = [] ∨ ∃ a, l = a :: H.anc a) → (∀ a ∈ l, a < c) →
    (nearest H reg c = l.findSome? reg) →
    ∃ d', walk1 d c l = .ok (d', l.findSome? reg) ∧ Inv1 H reg d' := by
  intro l
  induction l with
  | nil => intro _ _ _; exact ⟨d, rfl, hI⟩
  | cons a as ih =>
    intro hl hlt hn
    have hal : a < c := hlt a (List.mem_cons_self ..)
    have has : as = H.anc a := by
      rcases hl with h | ⟨b, h⟩
      · cases h
      · simp at h; rw [h.2, h.1]
    have hlen : a < d.len := by rw [hI.1]; omega
    have hna : nearest H reg a = (a :: as).findSome? reg := by rw [has]; rfl
    rw [walk1, if_pos hlen]
    cases hcb : d.cb a with
    | some f =>
      have hf : (a :: as).findSome? reg = some f := by
        rcases hI.2 a (by omega) with h | ⟨_, h⟩
        · rw [hcb] at h; simp [← h]
        · rw [← hna, ← h, hcb]
      simp only [if_pos (show a < max d.infoLen (c + 1) by omega)]
      refine ⟨{ d with cb := upd1 d.cb c (some f), infoLen := max d.infoLen (c + 1) }, by rw [hf], hI.1, ?_⟩
      intro b hb
      simp only [upd1]
      split
      · rename_i e; subst e; right; exact ⟨hreg, by rw [hn, hf]⟩
      · exact hI.2 b hb
    | none =>
      have hra : reg a = none := by
        rcases hI.2 a (by omega) with h | ⟨h, _⟩
        · rw [← h, hcb]
        · exact h
      have hfs : (a :: as).findSome? reg = as.findSome? reg := by simp [hra]
      rw [hfs] at hn ⊢
      refine ih ?_ (fun x hx => hlt x (List.mem_cons_of_mem _ hx)) hn
      rw [has]
      rcases H.coh a with h | ⟨p, h⟩
      · exact Or.inl h
      · exact Or.inr ⟨p, h⟩

theorem locate1_spec (H : Hier) (reg : Nat → Option F) (d : D1 F) (hI : Inv1 H reg d) (c : Nat) (hc : c < H.n) :
    ∃ d', locate1 H d c = .ok (d', nearest H reg c) ∧ Inv1 H reg d' := by
  unfold locate1
  rw [if_neg (by rw [hI.1]; omega), if_neg (by rw [hI.1]; omega), Int.toNat_natCast]
  cases hcb : d.cb c with
  | some f =>
    refine ⟨d, ?_, hI⟩
    rcases hI.2 c hc with h | ⟨_, h⟩
    · have : nearest H reg c = some f := by simp [nearest, ← h, hcb]
      rw [this]
    · rw [← h, hcb]
  | none =>
    have hr : reg c = none := by
      rcases hI.2 c hc with h | ⟨h, _⟩
      · rw [← h, hcb]
      · exact h
    have hn : nearest H reg c = (H.anc c).findSome? reg := by simp [nearest, hr]
    rw [hn]
    refine walk1_spec H reg d hI c hc hr (H.anc c) ?_ (H.lt c) hn
    rcases H.coh c with h | ⟨p, h⟩
    · exact Or.inl h
    · exact Or.inr ⟨p, h⟩

theorem looks1_inv (H : Hier) (reg : Nat → Option F) (qs : List Nat) : ∀ (d : D1 F), Inv1 H reg d →
    (∀ q ∈ qs, q < H.n) → ∃ d', looks1 H d qs = .ok d' ∧ Inv1 H reg d' := by
  induction qs with
  | nil => intro d h _; exact ⟨d, rfl, h⟩
  | cons q qs ih =>
    intro d h hq
    obtain ⟨d1, a, b⟩ := locate1_spec H reg d h q (hq q (List.mem_cons_self ..))
    simp only [looks1, a]
    exact ih d1 b (fun x hx => hq x (List.mem_cons_of_mem _ hx))

theorem looks1_clear (H : Hier) (qs : List Nat) : looks1 H (clear1 : D1 F) qs = .ok clear1 := by
  induction qs with
  | nil => rfl
  | cons q qs ih => simp [looks1, locate1, clear1] at *; exact ih

/-- **C20.** After any registrations and any sequence of lookups, looking up class `c` gives the functor registered for
the nearest class among `c` and its ancestors, and none exactly if none of them has one; no
undefined behaviour. Being stated after an arbitrary sequence of lookups, it includes that asking
again gives the same answer. -/
theorem C20_nearest (H : Hier) (regs : List (Nat × F)) (hr : ∀ p ∈ regs, p.1 < H.n) (qs : List Nat)
    (hq : ∀ q ∈ qs, q < H.n) (c : Nat) (hc : c < H.n) :
    ∃ d d' d'', adds1 H clear1 regs = .ok d ∧ looks1 H d qs = .ok d' ∧
      locate1 H d' c = .ok (d'', nearest H (lastReg regs) c) := by
  obtain ⟨d, a, b⟩ := adds1_ok H regs hr [] clear1 (Or.inl ⟨rfl, rfl⟩)
  rw [List.nil_append] at b
  rcases b with ⟨rfl, rfl⟩ | ⟨b1, b2⟩
  · refine ⟨_, _, clear1, a, looks1_clear H qs, ?_⟩
    have : nearest H (lastReg ([] : List (Nat × F))) c = none := by
      unfold nearest
      rw [List.findSome?_eq_none_iff]
      intro x _; rfl
    rw [this]; rfl
  · obtain ⟨d', e, g⟩ := looks1_inv H (lastReg regs) qs d ⟨b1, fun c hc => Or.inl (b2 c hc)⟩ hq
    obtain ⟨d'', x, _⟩ := locate1_spec H _ d' g c hc
    exact ⟨d, d', d'', a, e, x⟩

/-- hierarchy of the examples: 0 ← 1 ← 2 ← 3, and 4 on its own -/
def exH : Hier where
  n := 5
  anc c := if c = 1 then [0] else if c = 2 then [1, 0] else if c = 3 then [2, 1, 0] else []
  coh c := by
    by_cases h1 : c = 1
    · right; exact ⟨0, by simp [h1]⟩
    by_cases h2 : c = 2
    · right; exact ⟨1, by simp [h2]⟩
    by_cases h3 : c = 3
    · right; exact ⟨2, by simp [h3]⟩
    · left; simp [h1, h2, h3]
  lt c a h := by
    by_cases h1 : c = 1
    · simp [h1] at h; omega
    by_cases h2 : c = 2
    · simp [h2] at h; omega
    by_cases h3 : c = 3
    · simp [h3] at h; omega
    · simp [h1, h2, h3] at h

example : nearest exH (lastReg [(0, "a"), (1, "b"), (0, "c")]) 3 = some "b" ∧
    nearest exH (lastReg [(0, "a"), (1, "b"), (0, "c")]) 0 = some "c" ∧
    nearest exH (lastReg [(0, "a"), (1, "b"), (0, "c")]) 4 = none := by decide +kernel

/-! ## C65: objects of the top-level class -/

/-- **C65, partial.** `dispFunctor` (one argument) reports an object of the top-level class, whose index is negative, by an
exception, whatever the state of the dispatcher. Missing: the calls that dispatch without this test
(`C65_violated`). -/
theorem C65_negative_index_partial (H : Hier) (d : D1 F) (c : Int) (h : c < 0) : getExecutor1 H d c = .throws := by
  simp [getExecutor1, h]

example : getExecutor1 exH (clear1 : D1 Nat) (-1) = .throws := C65_negative_index_partial _ _ _ (by decide)

/-- **C65 violated.** `BoundDispatcher`'s call operator and `getFunctor2D`, used by the interaction loop, read
outside the matrix. -/
theorem C65_violated : ∃ d, adds1 exH clear1 [(0, 7)] = .ok d ∧ locate1 exH d (-1) = .ub ∧
    ∃ t, add2 exH exH true true clear2 ⟨1, 1, 0, 0, none⟩ = .ok t ∧ getFunctor2 exH exH t (-1) 0 = .ub := by
  refine ⟨_, rfl, rfl, _, rfl, rfl⟩

/-! ## C64: functors get arguments of the classes they declare -/

/-- class `a` is `c` or derives from it -/
def Desc (H : Hier) (a c : Nat) : Prop := a = c ∨ c ∈ H.anc a

theorem Desc.trans {H : Hier} {a b c : Nat} (h1 : Desc H a b) (h2 : Desc H b c) : Desc H a c := by
  rcases h1 with rfl | h1
  · exact h2
  rcases h2 with rfl | h2
  · exact Or.inr h1
  right
  -- induction along the ancestors of `a`
  suffices ∀ l : List Nat, (l = [] ∨ ∃ x, l = x :: H.anc x) → b ∈ l → c ∈ l from by
    refine this (H.anc a) ?_ h1
    rcases H.coh a with h | ⟨p, h⟩
    · exact Or.inl h
    · exact Or.inr ⟨p, h⟩
  intro l
  induction l with
  | nil => intro _ h; cases h
  | cons x xs ih =>
    intro hl hb
    have hx : xs = H.anc x := by
      rcases hl with h | ⟨y, h⟩
      · cases h
      · simp at h; rw [h.2, h.1]
    rcases List.mem_cons.mp hb with rfl | hb
    · exact List.mem_cons_of_mem _ (hx ▸ h2)
    · refine List.mem_cons_of_mem _ (ih ?_ hb)
      rw [hx]
      rcases H.coh x with h | ⟨p, h⟩
      · exact Or.inl h
      · exact Or.inr ⟨p, h⟩

theorem desc_of_up {H : Hier} {c k a : Nat} (h : H.up c k = some a) : Desc H c a := by
  cases k with
  | zero => simp [Hier.up] at h; exact Or.inl h
  | succ k => simp only [Hier.up, List.getElem?_cons_succ] at h; exact Or.inr (List.mem_of_getElem? h)

theorem up_of_desc {H : Hier} {c a : Nat} (h : Desc H c a) : ∃ k, H.up c k = some a := by
  rcases h with rfl | h
  · exact ⟨0, rfl⟩
  · obtain ⟨k, hk⟩ := List.getElem?_of_mem h
    exact ⟨k + 1, hk⟩

/-- the classes that `go` of the functor expects as its first and second argument: those of `checkOrder()` where the
dispatcher relies on it, those it is registered for otherwise -/
def goTypes (same auto : Bool) (f : Fn) : Nat × Nat := if same && !auto then f.order.getD (f.c1, f.c2) else (f.c1, f.c2)

/-- a functor whose order is defined if the dispatcher asks for it (otherwise registration raises) -/
def OrderOk (same auto : Bool) (f : Fn) : Prop :=
  same = true → auto = true ∨ f.order = some (f.c1, f.c2) ∨ f.order = some (f.c2, f.c1)

/-- any sequence of registrations and lookups (also failing ones) on a dispatcher, with the functors registered -/
inductive Reach2 (H1 H2 : Hier) (same auto : Bool) : D2 → List Fn → Prop
  | clear : Reach2 H1 H2 same auto clear2 []
  | add {d d' fs f} : Reach2 H1 H2 same auto d fs → OrderOk same auto f → add2 H1 H2 same auto d f = .ok d' →
      Reach2 H1 H2 same auto d' (fs ++ [f])
  | found {d d' fs r} (c1 c2 : Nat) : Reach2 H1 H2 same auto d fs → c1 < H1.n → c2 < H2.n →
      locate2 H1 H2 d c1 c2 = .ok (d', r) → Reach2 H1 H2 same auto d' fs
  | ambiguous {d d' fs} (c1 c2 : Nat) : Reach2 H1 H2 same auto d fs → c1 < H1.n → c2 < H2.n →
      locate2 H1 H2 d c1 c2 = .ambiguous d' → Reach2 H1 H2 same auto d' fs

/-- sizes of a matrix in use -/
def Sized (H1 H2 : Hier) (d : D2) : Prop := d = clear2 ∨ (d.n1 = H1.n ∧ d.n2 = H2.n ∧ 0 < H1.n)

theorem locate2_cases {H1 H2 : Hier} {d : D2} {c1 c2 : Nat} (hs : Sized H1 H2 d) (h1 : c1 < H1.n) (h2 : c2 < H2.n) :
    (d = clear2 ∧ locate2 H1 H2 d c1 c2 = .ok (d, false)) ∨
    (0 < d.n1 ∧ (∃ f, d.cb c1 c2 = some f) ∧ locate2 H1 H2 d c1 c2 = .ok (d, true)) ∨
    (0 < d.n1 ∧ d.cb c1 c2 = none ∧ c1 < d.n1 ∧ c2 < d.n2 ∧ Search H1 H2 d c1 c2 (locate2 H1 H2 d c1 c2)) := by
  rcases hs with rfl | ⟨s1, s2, s3⟩
  · left; exact ⟨rfl, rfl⟩
  · right
    have e0 : ¬ d.n1 = 0 := by omega
    have e1 : ¬ ((c1 : Int) < 0 ∨ (c2 : Int) < 0 ∨ (c1 : Int) ≥ d.n1 ∨ (c2 : Int) ≥ d.n2) := by omega
    cases hc : d.cb c1 c2 with
    | some f =>
      left
      refine ⟨by omega, ⟨f, rfl⟩, ?_⟩
      unfold locate2; rw [if_neg e0, if_neg e1]; simp [hc]
    | none =>
      right
      refine ⟨by omega, rfl, by omega, by omega, ?_⟩
      have hl : locate2 H1 H2 d c1 c2 = dists H1 H2 c1 c2 ((H1.anc c1).length + (H2.anc c2).length + 2) 1
          ⟨d, none, none, true, none⟩ := by
        unfold locate2; rw [if_neg e0, if_neg e1]; simp [hc]
      rw [hl]
      refine dists_spec (by omega) (by omega) _ 1 _ (Nat.le_refl _) (by simp [Hier.height]) (by omega)
        (Or.inr ⟨rfl, by omega⟩) (Or.inr ⟨rfl, by omega⟩) ⟨rfl, rfl⟩ (fun _ _ => ⟨rfl, rfl⟩) ?_
      intro d' hd' k hk
      have : d' = 0 := by omega
      subst this
      have : k = 0 := by omega
      subst this
      simpa [cell, Hier.up] using hc

theorem locate2_cached {H1 H2 : Hier} {d d' : D2} {c1 c2 : Nat} (hs : Sized H1 H2 d) (h1 : c1 < H1.n) (h2 : c2 < H2.n)
    (h : (∃ r, locate2 H1 H2 d c1 c2 = .ok (d', r)) ∨ locate2 H1 H2 d c1 c2 = .ambiguous d') :
    d' = d ∨ (Cached H1 H2 d d' c1 c2 ∧ d.cb c1 c2 = none ∧ 0 < d.n1) := by
  rcases locate2_cases hs h1 h2 with ⟨_, e⟩ | ⟨_, _, e⟩ | ⟨p, q, _, _, s⟩
  · rw [e] at h; rcases h with ⟨r, h⟩ | h
    · cases h; exact Or.inl rfl
    · cases h
  · rw [e] at h; rcases h with ⟨r, h⟩ | h
    · cases h; exact Or.inl rfl
    · cases h
  · right
    refine ⟨?_, q, p⟩
    generalize hl : locate2 H1 H2 d c1 c2 = r at *
    rcases h with ⟨r', h⟩ | h <;> subst h <;> cases s <;> assumption

theorem sized_cached {H1 H2 : Hier} {d d' : D2} {c1 c2 : Nat} (hs : Sized H1 H2 d) (hp : 0 < d.n1)
    (h : Cached H1 H2 d d' c1 c2) : Sized H1 H2 d' := by
  rcases hs with rfl | ⟨a, b, c⟩
  · simp [clear2] at hp
  · exact Or.inr ⟨h.size.1.trans a, h.size.2.trans b, c⟩

theorem add2_ok {H1 H2 : Hier} {same auto : Bool} {d d' : D2} {f : Fn} (h : add2 H1 H2 same auto d f = .ok d') :
    f.c1 < H1.n ∧ f.c2 < H2.n ∧ write2 same auto (grow2 d H1.n H2.n) f = .ok d' := by
  unfold add2 at h
  split at h
  · rename_i hc; exact ⟨hc.1, hc.2, h⟩
  · cases h

/-- the entries written by a registration -/
theorem write2_entry {same auto : Bool} {d d' : D2} {f : Fn} (h : write2 same auto d f = .ok d') :
    d'.n1 = d.n1 ∧ d'.n2 = d.n2 ∧ ∀ a b,
      ((a = f.c1 ∧ b = f.c2 ∨ same = true ∧ a = f.c2 ∧ b = f.c1) → d'.cb a b = some f ∧
        ((d'.info a b = false ∧ (goTypes same auto f = (a, b) ∨ (f.c1 = f.c2 ∧ a = f.c1 ∧ b = f.c2 ∧
            (OrderOk same auto f → goTypes same auto f = (a, b))))) ∨
         (d'.info a b = true ∧ same = true ∧ goTypes same auto f = (b, a)))) ∧
      (¬ (a = f.c1 ∧ b = f.c2 ∨ same = true ∧ a = f.c2 ∧ b = f.c1) →
        d'.cb a b = d.cb a b ∧ d'.info a b = d.info a b) := by
  unfold write2 at h
  cases same with
  | false =>
    simp only [Bool.false_eq_true, if_false] at h
    cases h
    refine ⟨rfl, rfl, fun a b => ⟨?_, ?_⟩⟩
    · rintro (⟨rfl, rfl⟩ | ⟨h, _⟩)
      · simp [put2, upd2, goTypes]
      · cases h
    · intro hn
      simp only [Bool.false_eq_true, false_and, or_false] at hn
      simp [put2, upd2, hn]
  | true =>
    simp only [if_true] at h
    split at h
    · rename_i hc
      cases h
      have hg : goTypes true auto f = (f.c1, f.c2) := by
        unfold goTypes
        rcases hc with h | h
        · simp [h]
        · simp [h]
      refine ⟨rfl, rfl, fun a b => ⟨?_, ?_⟩⟩
      · rintro (⟨rfl, rfl⟩ | ⟨_, rfl, rfl⟩)
        · simp [put2, upd2, hg]
        · by_cases he : f.c2 = f.c1
          · simp [put2, upd2, hg, he]
          · simp [put2, upd2, hg, he]
      · intro hn
        simp only [true_and, not_or] at hn
        simp [put2, upd2, hn.1, hn.2]
    · split at h
      · rename_i hc1 hc
        cases h
        have hau : auto = false := by
          cases auto with
          | false => rfl
          | true => exact absurd (Or.inl rfl) hc1
        have hg : goTypes true auto f = (f.c2, f.c1) := by
          simp [goTypes, hau, hc]
        refine ⟨rfl, rfl, fun a b => ⟨?_, ?_⟩⟩
        · rintro (⟨rfl, rfl⟩ | ⟨_, rfl, rfl⟩)
          · simp [put2, upd2, hg]
          · by_cases he : f.c2 = f.c1
            · exfalso
              apply hc1; right; rw [hc, he]
            · simp [put2, upd2, hg, he]
        · intro hn
          simp only [true_and, not_or] at hn
          simp [put2, upd2, hn.1, hn.2]
      · cases h

/-- an entry calls its functor with arguments of the classes it expects -/
def Typed (H1 H2 : Hier) (same auto : Bool) (d : D2) : Prop := ∀ a b f, d.cb a b = some f →
  (d.info a b = false ∧ Desc H1 a (goTypes same auto f).1 ∧ Desc H2 b (goTypes same auto f).2) ∨
  (d.info a b = true ∧ same = true ∧ Desc H1 b (goTypes same auto f).1 ∧ Desc H2 a (goTypes same auto f).2)

theorem grow2_cb {H1 H2 : Hier} {d : D2} (a b : Nat) (f : Fn)
    (h : (grow2 d H1.n H2.n).cb a b = some f) : d.cb a b = some f ∧ (grow2 d H1.n H2.n).info a b = d.info a b := by
  simp only [grow2] at h ⊢
  split at h
  · rename_i hc; exact ⟨h, by rw [if_pos hc]⟩
  · cases h

theorem reach2_inv {H1 H2 : Hier} {same auto : Bool} {d : D2} {fs : List Fn} (hH : same = true → H1 = H2)
    (h : Reach2 H1 H2 same auto d fs) : Sized H1 H2 d ∧ Typed H1 H2 same auto d := by
  have step : ∀ {d d' : D2} {c1 c2 : Nat}, Sized H1 H2 d → Typed H1 H2 same auto d → c1 < H1.n → c2 < H2.n →
      ((∃ r, locate2 H1 H2 d c1 c2 = .ok (d', r)) ∨ locate2 H1 H2 d c1 c2 = .ambiguous d') →
      Sized H1 H2 d' ∧ Typed H1 H2 same auto d' := by
    intro d d' c1 c2 hs ht h1 h2 h
    rcases locate2_cached hs h1 h2 h with rfl | ⟨hc, hn, hp⟩
    · exact ⟨hs, ht⟩
    · refine ⟨sized_cached hs hp hc, ?_⟩
      intro a b f hf
      by_cases hab : a = c1 ∧ b = c2
      · obtain ⟨rfl, rfl⟩ := hab
        rcases hc.on with ⟨e1, _⟩ | ⟨i, j, x, y, g, u1, u2, u3, u4, u5⟩
        · rw [e1, hn] at hf; cases hf
        · rw [u4] at hf; cases hf
          rw [u5]
          have dx := desc_of_up u1
          have dy := desc_of_up u2
          rcases ht x y f u3 with ⟨t1, t2, t3⟩ | ⟨t1, t2, t3, t4⟩
          · exact Or.inl ⟨t1, dx.trans t2, dy.trans t3⟩
          · have := hH t2; subst this
            exact Or.inr ⟨t1, t2, dy.trans t3, dx.trans t4⟩
      · rw [(hc.off a b hab).1] at hf
        rw [(hc.off a b hab).2]
        exact ht a b f hf
  induction h with
  | clear => exact ⟨Or.inl rfl, fun a b f h => by simp [clear2] at h⟩
  | @add d d' fs f _ hok hadd ih =>
    obtain ⟨hs, ht⟩ := ih
    obtain ⟨q1, q2, hw⟩ := add2_ok hadd
    obtain ⟨n1, n2, he⟩ := write2_entry hw
    refine ⟨Or.inr ⟨n1, n2, by omega⟩, ?_⟩
    intro a b g hg
    by_cases hd : a = f.c1 ∧ b = f.c2 ∨ same = true ∧ a = f.c2 ∧ b = f.c1
    · obtain ⟨e1, e2⟩ := (he a b).1 hd
      rw [e1] at hg; cases hg
      rcases e2 with ⟨i, e | ⟨_, _, _, e⟩⟩ | ⟨i, hsame, e⟩
      · exact Or.inl ⟨i, by rw [e]; exact Or.inl rfl, by rw [e]; exact Or.inl rfl⟩
      · have e := e hok
        exact Or.inl ⟨i, by rw [e]; exact Or.inl rfl, by rw [e]; exact Or.inl rfl⟩
      · exact Or.inr ⟨i, hsame, by rw [e]; exact Or.inl rfl, by rw [e]; exact Or.inl rfl⟩
    · obtain ⟨e1, e2⟩ := (he a b).2 hd
      rw [e1] at hg; rw [e2]
      obtain ⟨g1, g2⟩ := grow2_cb a b g hg
      rw [g2]; exact ht a b g g1
  | found c1 c2 _ h1 h2 hl ih => exact step ih.1 ih.2 h1 h2 (Or.inl ⟨_, hl⟩)
  | ambiguous c1 c2 _ h1 h2 hl ih => exact step ih.1 ih.2 h1 h2 (Or.inr hl)

/-- **C64.** After any interleaving of registrations and lookups, a functor returned by a lookup is called with objects of
the classes it expects or derived ones: the arguments in the given order if `swap` is false, exchanged if
`swap` is true. -/
theorem C64_typed {H1 H2 : Hier} {same auto : Bool} {d d' : D2} {fs : List Fn} (hH : same = true → H1 = H2)
    (h : Reach2 H1 H2 same auto d fs) (c1 c2 : Nat) (h1 : c1 < H1.n) (h2 : c2 < H2.n) (f : Fn) (swap : Bool)
    (hg : getFunctor2 H1 H2 d c1 c2 = .ok (d', some (f, swap))) :
    (swap = false → Desc H1 c1 (goTypes same auto f).1 ∧ Desc H2 c2 (goTypes same auto f).2) ∧
    (swap = true → same = true ∧ Desc H1 c2 (goTypes same auto f).1 ∧ Desc H2 c1 (goTypes same auto f).2) := by
  have key : ∃ r, locate2 H1 H2 d c1 c2 = .ok (d', r) ∧ d'.cb c1 c2 = some f ∧ d'.info c1 c2 = swap := by
    unfold getFunctor2 at hg
    cases hl : locate2 H1 H2 d c1 c2 with
    | ok p =>
      obtain ⟨d1, b⟩ := p
      rw [hl] at hg
      cases b with
      | false => simp at hg
      | true =>
        simp only [Int.toNat_natCast, LR.ok.injEq, Prod.mk.injEq, Option.map_eq_some_iff] at hg
        obtain ⟨rfl, g, hg1, hg2, hg3⟩ := hg
        subst hg2
        exact ⟨true, rfl, hg1, hg3⟩
    | ambiguous d1 => rw [hl] at hg; simp at hg
    | logicError => rw [hl] at hg; simp at hg
    | ub => rw [hl] at hg; simp at hg
  obtain ⟨r, k1, k2, k3⟩ := key
  have hr := Reach2.found c1 c2 h h1 h2 k1
  rcases (reach2_inv hH hr).2 c1 c2 f k2 with ⟨a, b, c⟩ | ⟨a, b, c, e⟩
  · rw [k3] at a; subst a; exact ⟨fun _ => ⟨b, c⟩, fun h => by cases h⟩
  · rw [k3] at a; subst a; exact ⟨(fun h => by cases h), fun _ => ⟨b, c, e⟩⟩

/-- decidable view of a lookup: functor and swap flag, `none` for no functor; 1 for ambiguity, 2 for UB -/
def seen : LR (D2 × Option (Fn × Bool)) → (Option (Nat × Bool)) × Nat
  | .ok (_, some (f, b)) => (some (f.id, b), 0)
  | .ok (_, none) => (none, 0)
  | .ambiguous _ => (none, 1)
  | .logicError => (none, 3)
  | .ub => (none, 2)

/-- matrix after a lookup -/
def matAfter : LR (D2 × Option (Fn × Bool)) → D2
  | .ok (d, _) => d
  | .ambiguous d => d
  | _ => clear2

/-- matrix of registrations -/
def exT (fs : List Fn) : D2 := match addAll2 exH exH true true clear2 fs with
  | .ok d => d
  | _ => clear2

/-- matrix of registrations for two different base classes -/
def exT' (fs : List Fn) : D2 := match addAll2 exH exH false true clear2 fs with
  | .ok d => d
  | _ => clear2

example : seen (getFunctor2 exH exH (exT [⟨10, 10, 1, 4, none⟩]) 4 3) = (some (10, true), 0) := by decide +kernel

/-! ## C21: two arguments -/

/-- the pair `(a,b)` is one for which functor `f` was registered (in either order if both base classes are the same) -/
def Direct (same : Bool) (f : Fn) (a b : Nat) : Prop := a = f.c1 ∧ b = f.c2 ∨ same = true ∧ a = f.c2 ∧ b = f.c1

instance (same : Bool) (f : Fn) (a b : Nat) : Decidable (Direct same f a b) := by unfold Direct; infer_instance

/-- functor registered last for a pair -/
def regCell (same : Bool) : List Fn → Nat → Nat → Option Fn
  | [], _, _ => none
  | f :: fs, a, b => (regCell same fs a b).or (if Direct same f a b then some f else none)

/-- functor registered for the pair of classes `k` levels above the first and `d-k` levels above the second argument -/
def regAt (H1 H2 : Hier) (R : Nat → Nat → Option Fn) (c1 c2 d k : Nat) : Option Fn :=
  match H1.up c1 k, H2.up c2 (d - k) with
  | some a, some b => R a b
  | _, _ => none

/-- `d` is the least summed distance at which a functor is registered -/
def Least (H1 H2 : Hier) (R : Nat → Nat → Option Fn) (c1 c2 d : Nat) : Prop :=
  (∃ k, k ≤ d ∧ regAt H1 H2 R c1 c2 d k ≠ none) ∧ ∀ d', d' < d → ∀ k, k ≤ d' → regAt H1 H2 R c1 c2 d' k = none

theorem regCell_snoc (same : Bool) (fs : List Fn) (f : Fn) (a b : Nat) :
    regCell same (fs ++ [f]) a b = if Direct same f a b then some f else regCell same fs a b := by
  induction fs with
  | nil => simp only [List.nil_append, regCell]; split <;> rfl
  | cons x xs ih => simp only [List.cons_append, regCell, ih]; split <;> simp

theorem addAll2_cells {H1 H2 : Hier} {same auto : Bool} (fs : List Fn) : ∀ (done : List Fn) (d d' : D2), Sized H1 H2 d →
    (∀ a b, a < H1.n → b < H2.n → d.cb a b = regCell same done a b) → addAll2 H1 H2 same auto d fs = .ok d' →
    Sized H1 H2 d' ∧ (∀ a b, a < H1.n → b < H2.n → d'.cb a b = regCell same (done ++ fs) a b) := by
  induction fs with
  | nil => intro done d d' hs hc h; cases h; simpa using ⟨hs, hc⟩
  | cons f fs ih =>
    intro done d d' hs hc h
    have : ∃ d1, add2 H1 H2 same auto d f = .ok d1 ∧ addAll2 H1 H2 same auto d1 fs = .ok d' := by
      simp only [addAll2] at h
      cases ha : add2 H1 H2 same auto d f with
      | ok d1 => rw [ha] at h; exact ⟨d1, rfl, h⟩
      | throws => rw [ha] at h; cases h
      | ub => rw [ha] at h; cases h
    obtain ⟨d1, ha, hr⟩ := this
    obtain ⟨q1, q2, hw⟩ := add2_ok ha
    obtain ⟨n1, n2, he⟩ := write2_entry hw
    have hs1 : Sized H1 H2 d1 := Or.inr ⟨n1, n2, by omega⟩
    have := ih (done ++ [f]) d1 d' hs1 ?_ hr
    · simpa using this
    · intro a b ha' hb'
      rw [regCell_snoc]
      by_cases hd : Direct same f a b
      · rw [if_pos hd]; exact ((he a b).1 hd).1
      · rw [if_neg hd, ((he a b).2 hd).1]
        simp only [grow2]
        rcases hs with rfl | ⟨s1, s2, s3⟩
        · rw [← hc a b ha' hb']; simp [clear2]
        · rw [if_pos (by omega)]; exact hc a b ha' hb'

theorem cell_eq_regAt {H1 H2 : Hier} {T : D2} {R : Nat → Nat → Option Fn} {c1 c2 : Nat} (h1 : c1 < H1.n) (h2 : c2 < H2.n)
    (hT : ∀ a b, a < H1.n → b < H2.n → T.cb a b = R a b) (d k : Nat) :
    cell H1 H2 T c1 c2 d k = regAt H1 H2 R c1 c2 d k := by
  unfold cell regAt
  split
  · rename_i a b ha hb
    have := H1.up_le ha; have := H2.up_le hb
    rw [ha, hb]
    exact hT a b (by omega) (by omega)
  · rename_i hx
    split
    · rename_i a b ha hb; exact absurd hb (hx a b ha)
    · rfl

/-- **C21, partial.** On a dispatcher just filled with any list of functors, a lookup either returns a functor, and then
all functors at the least summed distance are that one; or reports ambiguity, and then there are two different ones at the
least distance; or returns none, and then no pair of ancestors has a functor. With a matrix that has not
more rows than columns there is no other outcome.
Missing: lookups after other lookups and matrices with more rows than columns, where the claim is false
(`C21_violated_*`). -/
theorem C21_first_lookup_partial {H1 H2 : Hier} {same auto : Bool} (fs : List Fn) (T : D2)
    (hT : addAll2 H1 H2 same auto clear2 fs = .ok T) (hn : H1.n ≤ H2.n) (c1 c2 : Nat) (h1 : c1 < H1.n) (h2 : c2 < H2.n) :
    (∃ d f swap dist, getFunctor2 H1 H2 T c1 c2 = .ok (d, some (f, swap)) ∧
      Least H1 H2 (regCell same fs) c1 c2 dist ∧
      ∀ k, k ≤ dist → regAt H1 H2 (regCell same fs) c1 c2 dist k = none ∨
        regAt H1 H2 (regCell same fs) c1 c2 dist k = some f) ∨
    (∃ d dist, getFunctor2 H1 H2 T c1 c2 = .ambiguous d ∧ Least H1 H2 (regCell same fs) c1 c2 dist ∧
      ∃ i j f g, i ≤ dist ∧ j ≤ dist ∧ f ≠ g ∧ regAt H1 H2 (regCell same fs) c1 c2 dist i = some f ∧
        regAt H1 H2 (regCell same fs) c1 c2 dist j = some g) ∨
    (∃ d, getFunctor2 H1 H2 T c1 c2 = .ok (d, none) ∧
      ∀ dist k, k ≤ dist → regAt H1 H2 (regCell same fs) c1 c2 dist k = none) := by
  obtain ⟨hs, hc⟩ := addAll2_cells fs [] clear2 T (Or.inl rfl) (fun a b _ _ => rfl) hT
  rw [List.nil_append] at hc
  have hcell := cell_eq_regAt h1 h2 hc
  rcases locate2_cases hs h1 h2 with ⟨e, hl⟩ | ⟨_, ⟨f, hf⟩, hl⟩ | ⟨hp, hq, _, _, s⟩
  · right; right
    refine ⟨T, by simp only [getFunctor2, hl], ?_⟩
    intro dist k _
    rw [← hcell, e]
    unfold cell; split <;> rfl
  · left
    refine ⟨T, f, T.info c1 c2, 0, by simp [getFunctor2, hl, hf], ⟨⟨0, Nat.le_refl _, ?_⟩, fun d' h => by omega⟩, ?_⟩
    · rw [← hcell]; simp [cell, Hier.up, hf]
    · intro k hk
      have : k = 0 := by omega
      subst this
      right; rw [← hcell]; simp [cell, Hier.up, hf]
  · generalize hl : locate2 H1 H2 T c1 c2 = r at s
    cases s with
    | found d dist j f a b w1 w2 w3 w4 w5 w6 w7 w8 w9 w10 =>
      left
      refine ⟨d, f, d.info c1 c2, dist, by simp [getFunctor2, hl, w6], ⟨⟨j, w2, ?_⟩, ?_⟩, ?_⟩
      · rw [← hcell]; simp [cell, w3, w4, w5]
      · intro d' hd k hk; rw [← hcell]; exact w1 d' hd k hk
      · intro k hk; rw [← hcell]; exact w8 k hk
    | notFound d w1 w2 w3 =>
      right; right
      exact ⟨d, by simp only [getFunctor2, hl], fun dist k hk => by rw [← hcell]; exact w1 dist k hk⟩
    | ambiguous d dist w1 w2 w3 w4 =>
      right; left
      obtain ⟨i, j, f, g, x1, x2, x3, x4, x5⟩ := w2
      refine ⟨d, dist, by simp only [getFunctor2, hl], ⟨⟨i, x1, ?_⟩, ?_⟩, i, j, f, g, x1, x2, x3, ?_, ?_⟩
      · rw [← hcell, x4]; simp
      · intro d' hd k hk; rw [← hcell]; exact w1 d' hd k hk
      · rw [← hcell]; exact x4
      · rw [← hcell]; exact x5
    | ub dist w1 w2 w3 =>
      exfalso
      rcases hs with rfl | ⟨s1, s2, s3⟩
      · simp [clear2] at hp
      · omega

/-- hypotheses met, non-trivially: two functors, the nearer one is chosen; two equally near ones are ambiguous -/
example : seen (getFunctor2 exH exH (exT [⟨10, 10, 0, 4, none⟩, ⟨11, 11, 1, 4, none⟩]) 3 4) = (some (11, false), 0) ∧
    seen (getFunctor2 exH exH (exT [⟨10, 10, 1, 2, none⟩, ⟨11, 11, 1, 3, none⟩]) 2 3) = (some (11, false), 0) ∧
    seen (getFunctor2 exH exH (exT' [⟨10, 10, 0, 2, none⟩, ⟨11, 11, 1, 1, none⟩]) 1 2) = (none, 1) := by decide +kernel

/-- a functor found once is found again: the entry does not change whatever other lookups are made, until the
next registration -/
theorem C21_again_partial {H1 H2 : Hier} {d d' : D2} (hs : Sized H1 H2 d) (c1 c2 x1 x2 : Nat) (h1 : c1 < H1.n)
    (h2 : c2 < H2.n) (hx1 : x1 < H1.n) (hx2 : x2 < H2.n) (f : Fn) (b : Bool)
    (hg : getFunctor2 H1 H2 d c1 c2 = .ok (d', some (f, b))) (d'' : D2)
    (hl : (∃ r, locate2 H1 H2 d' x1 x2 = .ok (d'', r)) ∨ locate2 H1 H2 d' x1 x2 = .ambiguous d'') :
    getFunctor2 H1 H2 d'' c1 c2 = .ok (d'', some (f, b)) := by
  have key : ∃ r, locate2 H1 H2 d c1 c2 = .ok (d', r) ∧ d'.cb c1 c2 = some f ∧ d'.info c1 c2 = b := by
    unfold getFunctor2 at hg
    cases hl : locate2 H1 H2 d c1 c2 with
    | ok p =>
      obtain ⟨d1, b⟩ := p
      rw [hl] at hg
      cases b with
      | false => simp at hg
      | true =>
        simp only [Int.toNat_natCast, LR.ok.injEq, Prod.mk.injEq, Option.map_eq_some_iff] at hg
        obtain ⟨rfl, g, hg1, hg2, hg3⟩ := hg
        subst hg2
        exact ⟨true, rfl, hg1, hg3⟩
    | ambiguous d1 => rw [hl] at hg; simp at hg
    | logicError => rw [hl] at hg; simp at hg
    | ub => rw [hl] at hg; simp at hg
  obtain ⟨r, k1, k2, k3⟩ := key
  have hs' : Sized H1 H2 d' := by
    rcases locate2_cached hs h1 h2 (Or.inl ⟨r, k1⟩) with rfl | ⟨hc, _, hp⟩
    · exact hs
    · exact sized_cached hs hp hc
  have hne : d' ≠ clear2 := by intro e; rw [e] at k2; simp [clear2] at k2
  have hs'' : Sized H1 H2 d'' ∧ d''.cb c1 c2 = some f ∧ d''.info c1 c2 = b := by
    rcases locate2_cached hs' hx1 hx2 hl with rfl | ⟨hc, hn, hp⟩
    · exact ⟨hs', k2, k3⟩
    · refine ⟨sized_cached hs' hp hc, ?_⟩
      have : ¬ (c1 = x1 ∧ c2 = x2) := by
        rintro ⟨rfl, rfl⟩; rw [hn] at k2; cases k2
      rw [(hc.off c1 c2 this).1, (hc.off c1 c2 this).2]
      exact ⟨k2, k3⟩
  obtain ⟨q1, q2, q3⟩ := hs''
  rcases locate2_cases q1 h1 h2 with ⟨e, _⟩ | ⟨_, _, e⟩ | ⟨_, e, _⟩
  · rw [e] at q2; simp [clear2] at q2
  · simp [getFunctor2, e, q2, q3]
  · rw [e] at q2; cases q2

/-- registered pairs keep an entry, and every entry comes from a registered pair of ancestors -/
def Sourced (H1 H2 : Hier) (same : Bool) (d : D2) (fs : List Fn) : Prop :=
  (∀ f ∈ fs, ∀ a b, Direct same f a b → a < H1.n ∧ b < H2.n ∧ d.cb a b ≠ none) ∧
  (∀ a b g, d.cb a b = some g → ∃ f ∈ fs, ∃ x y, Desc H1 a x ∧ Desc H2 b y ∧ Direct same f x y)

theorem reach2_sourced {H1 H2 : Hier} {same auto : Bool} {d : D2} {fs : List Fn} (hH : same = true → H1 = H2)
    (h : Reach2 H1 H2 same auto d fs) : Sourced H1 H2 same d fs := by
  have step : ∀ {d d' : D2} {fs : List Fn} {c1 c2 : Nat}, Sized H1 H2 d → Sourced H1 H2 same d fs → c1 < H1.n → c2 < H2.n →
      ((∃ r, locate2 H1 H2 d c1 c2 = .ok (d', r)) ∨ locate2 H1 H2 d c1 c2 = .ambiguous d') →
      Sourced H1 H2 same d' fs := by
    intro d d' fs c1 c2 hs ht h1 h2 h
    rcases locate2_cached hs h1 h2 h with rfl | ⟨hc, hn, hp⟩
    · exact ht
    · refine ⟨?_, ?_⟩
      · intro f hf a b hab
        have := ht.1 f hf a b hab
        by_cases he : a = c1 ∧ b = c2
        · obtain ⟨rfl, rfl⟩ := he; exact absurd hn this.2.2
        · rw [(hc.off a b he).1]; exact this
      · intro a b g hg
        by_cases he : a = c1 ∧ b = c2
        · obtain ⟨rfl, rfl⟩ := he
          rcases hc.on with ⟨e1, _⟩ | ⟨i, j, x, y, g', u1, u2, u3, u4, u5⟩
          · rw [e1, hn] at hg; cases hg
          · obtain ⟨f, hf, x', y', p1, p2, p3⟩ := ht.2 x y g' u3
            exact ⟨f, hf, x', y', (desc_of_up u1).trans p1, (desc_of_up u2).trans p2, p3⟩
        · rw [(hc.off a b he).1] at hg; exact ht.2 a b g hg
  induction h with
  | clear => exact ⟨(fun f hf => by cases hf), fun a b g hg => by simp [clear2] at hg⟩
  | @add d d' fs f hr hok hadd ih =>
    have hs := (reach2_inv hH hr).1
    obtain ⟨q1, q2, hw⟩ := add2_ok hadd
    obtain ⟨n1, n2, he⟩ := write2_entry hw
    refine ⟨?_, ?_⟩
    · intro g hg a b hab
      by_cases hd : Direct same f a b
      · rw [((he a b).1 hd).1]
        rcases hd with ⟨rfl, rfl⟩ | ⟨e, rfl, rfl⟩
        · exact ⟨q1, q2, by simp⟩
        · have := hH e; subst this; exact ⟨q2, q1, by simp⟩
      · rw [((he a b).2 hd).1]
        rcases List.mem_append.mp hg with hg | hg
        · obtain ⟨b1, b2, h0⟩ := ih.1 g hg a b hab
          rcases hs with rfl | ⟨s1, s2, s3⟩
          · exact absurd rfl h0
          · simp only [grow2]
            rw [if_pos (by omega)]; exact ⟨b1, b2, h0⟩
        · simp at hg; subst hg; exact absurd hab hd
    · intro a b g hg
      by_cases hd : Direct same f a b
      · exact ⟨f, by simp, a, b, Or.inl rfl, Or.inl rfl, hd⟩
      · rw [((he a b).2 hd).1] at hg
        obtain ⟨g1, _⟩ := grow2_cb a b g hg
        obtain ⟨f', hf', x, y, p⟩ := ih.2 a b g g1
        exact ⟨f', List.mem_append_left _ hf', x, y, p⟩
  | found c1 c2 hr h1 h2 hl ih => exact step (reach2_inv hH hr).1 ih h1 h2 (Or.inl ⟨_, hl⟩)
  | ambiguous c1 c2 hr h1 h2 hl ih => exact step (reach2_inv hH hr).1 ih h1 h2 (Or.inr hl)

/-- registered pair of ancestors of the classes of the two arguments -/
def Applies (H1 H2 : Hier) (same : Bool) (f : Fn) (c1 c2 : Nat) : Prop :=
  ∃ x y, Desc H1 c1 x ∧ Desc H2 c2 y ∧ Direct same f x y

/-- **C66.** After any interleaving of registrations and lookups, "no functor" is reported exactly if no registered functor
applies to the two classes. -/
theorem C66_none_iff {H1 H2 : Hier} {same auto : Bool} {d : D2} {fs : List Fn} (hH : same = true → H1 = H2)
    (h : Reach2 H1 H2 same auto d fs) (c1 c2 : Nat) (h1 : c1 < H1.n) (h2 : c2 < H2.n) :
    (∃ d', getFunctor2 H1 H2 d c1 c2 = .ok (d', none)) ↔ ∀ f ∈ fs, ¬ Applies H1 H2 same f c1 c2 := by
  have hs := (reach2_inv hH h).1
  have hsrc := reach2_sourced hH h
  have hcell : ∀ dist k, k ≤ dist → (∀ f ∈ fs, ¬ Applies H1 H2 same f c1 c2) → cell H1 H2 d c1 c2 dist k = none := by
    intro dist k hk hno
    unfold cell
    split
    · rename_i a b ha hb
      cases hc : d.cb a b with
      | none => rfl
      | some g =>
        obtain ⟨f, hf, x, y, p1, p2, p3⟩ := hsrc.2 a b g hc
        exact absurd ⟨x, y, (desc_of_up ha).trans p1, (desc_of_up hb).trans p2, p3⟩ (hno f hf)
    · rfl
  rcases locate2_cases hs h1 h2 with ⟨e, hl⟩ | ⟨_, ⟨g, hg⟩, hl⟩ | ⟨hp, hq, _, _, s⟩
  · refine ⟨fun _ f hf hap => ?_, fun _ => ⟨d, by simp only [getFunctor2, hl]⟩⟩
    obtain ⟨x, y, _, _, hd⟩ := hap
    apply (hsrc.1 f hf x y hd).2.2; rw [e]; rfl
  · constructor
    · rintro ⟨d', hd'⟩; simp [getFunctor2, hl, hg] at hd'
    · intro hno
      have := hcell 0 0 (Nat.le_refl _) hno
      simp [cell, Hier.up, hg] at this
  · generalize hl : locate2 H1 H2 d c1 c2 = r at s
    cases s with
    | found d' dist j f a b w1 w2 w3 w4 w5 w6 w7 w8 w9 w10 =>
      constructor
      · rintro ⟨d'', hd'⟩; simp [getFunctor2, hl, w6] at hd'
      · intro hno
        have := hcell dist j w2 hno
        simp [cell, w3, w4, w5] at this
    | notFound d' w1 w2 w3 =>
      refine ⟨fun _ f hf hap => ?_, fun _ => ⟨d', by simp only [getFunctor2, hl]⟩⟩
      obtain ⟨x, y, hx, hy, hd⟩ := hap
      obtain ⟨i, hi⟩ := up_of_desc hx
      obtain ⟨j, hj⟩ := up_of_desc hy
      have := w1 (i + j) i (by omega)
      unfold cell at this
      rw [hi, show i + j - i = j by omega, hj] at this
      exact (hsrc.1 f hf x y hd).2.2 this
    | ambiguous d' dist w1 w2 w3 w4 =>
      constructor
      · rintro ⟨d'', hd'⟩; simp [getFunctor2, hl] at hd'
      · intro hno
        obtain ⟨i, j, f, g, x1, x2, x3, x4, x5⟩ := w2
        rw [hcell dist i x1 hno] at x4; cases x4
    | ub dist w1 w2 w3 =>
      constructor
      · rintro ⟨d'', hd'⟩; simp [getFunctor2, hl] at hd'
      · intro hno
        obtain ⟨i, j, f, g, x1, x2, x3, x4, x5⟩ := w2
        rw [hcell dist i x1 hno] at x4; cases x4

/-- no functor for (4,4), one for (3,4), also after a lookup -/
example : ∃ d fs, Reach2 exH exH true true d fs ∧ fs ≠ [] ∧ (∃ d', getFunctor2 exH exH d 4 4 = .ok (d', none)) ∧
    seen (getFunctor2 exH exH d 3 4) = (some (10, false), 0) :=
  ⟨exT [⟨10, 10, 1, 4, none⟩], [⟨10, 10, 1, 4, none⟩], .add (fs := []) .clear (fun _ => Or.inl rfl) rfl, by simp, ⟨_, rfl⟩, by
    decide +kernel⟩

/-- **C21, partial: argument order.** On a freshly filled dispatcher of one base class, exchanging the arguments gives
the same functor. Missing: the arguments keep their roles (`C21_violated_roles`), and lookups after
other lookups. -/
theorem C21_order_partial {H : Hier} {auto : Bool} (fs : List Fn) (T : D2) (hT : addAll2 H H true auto clear2 fs = .ok T)
    (c1 c2 : Nat) (h1 : c1 < H.n) (h2 : c2 < H.n) (d : D2) (f : Fn) (b : Bool)
    (hg : getFunctor2 H H T c1 c2 = .ok (d, some (f, b))) :
    ∃ d' b', getFunctor2 H H T c2 c1 = .ok (d', some (f, b')) := by
  have hsym : ∀ dist k, k ≤ dist → regAt H H (regCell true fs) c2 c1 dist k = regAt H H (regCell true fs) c1 c2 dist (dist - k) := by
    intro dist k hk
    have hR : ∀ (fs : List Fn) a b, regCell true fs a b = regCell true fs b a := by
      intro fs a b
      induction fs with
      | nil => rfl
      | cons g gs ih =>
        simp only [regCell, ih]
        have : Direct true g a b ↔ Direct true g b a := by simp only [Direct, true_and]; omega
        simp only [this]
    unfold regAt
    rw [show dist - (dist - k) = k by omega]
    cases H.up c2 k <;> cases H.up c1 (dist - k) <;> simp [hR fs]
  have A := C21_first_lookup_partial fs T hT (Nat.le_refl _) c1 c2 h1 h2
  have B := C21_first_lookup_partial fs T hT (Nat.le_refl _) c2 c1 h2 h1
  have A' : ∃ dist, Least H H (regCell true fs) c1 c2 dist ∧
      ∀ k, k ≤ dist → regAt H H (regCell true fs) c1 c2 dist k = none ∨ regAt H H (regCell true fs) c1 c2 dist k = some f := by
    rcases A with ⟨_, g, _, dist, e, a, b⟩ | ⟨_, _, e, _⟩ | ⟨_, e, _⟩
    · rw [hg] at e; cases e; exact ⟨dist, a, b⟩
    · rw [hg] at e; cases e
    · rw [hg] at e; cases e
  obtain ⟨dist, ⟨⟨k, hk, hk'⟩, hlow⟩, hall⟩ := A'
  have hkf : regAt H H (regCell true fs) c1 c2 dist k = some f := (hall k hk).resolve_left hk'
  have hkB : regAt H H (regCell true fs) c2 c1 dist (dist - k) = some f := by
    rw [hsym dist _ (by omega), show dist - (dist - k) = k by omega]; exact hkf
  -- the least distance is the same
  have same : ∀ dist', Least H H (regCell true fs) c2 c1 dist' → dist' = dist := by
    rintro dist' ⟨⟨k', hk1, hk2⟩, hlow'⟩
    rcases Nat.lt_trichotomy dist' dist with hlt | he | hgt
    · rw [hsym dist' k' hk1] at hk2
      exact absurd (hlow dist' hlt _ (by omega)) hk2
    · exact he
    · rw [hlow' dist hgt (dist - k) (by omega)] at hkB; cases hkB
  rcases B with ⟨d', g, b', dist', e, a, q⟩ | ⟨d', dist', e, a, i, j, f1, f2, hi, hj, hne, u, v⟩ | ⟨d', e, q⟩
  · have := same _ a; subst this
    rcases q (dist' - k) (by omega) with h | h
    · rw [h] at hkB; cases hkB
    · rw [h] at hkB; cases hkB; exact ⟨d', b', e⟩
  · have := same _ a; subst this
    rw [hsym _ _ hi] at u; rw [hsym _ _ hj] at v
    rcases hall (dist' - i) (by omega) with h | h <;> rw [u] at h <;> cases h
    rcases hall (dist' - j) (by omega) with h | h <;> rw [v] at h <;> cases h
    exact absurd rfl hne
  · rw [q dist (dist - k) (by omega)] at hkB; cases hkB

example : seen (getFunctor2 exH exH (exT [⟨10, 10, 1, 4, none⟩]) 3 4) = (some (10, false), 0) ∧
    seen (getFunctor2 exH exH (exT [⟨10, 10, 1, 4, none⟩]) 4 3) = (some (10, true), 0) := by decide +kernel

/-- **C21 violated: history.** Functors `P` for (3,0) and `Q` for (1,1). Asked first, (3,1) goes to `P` (distance 1); if
(2,1) was looked up before, the copy of `Q` made by that lookup is also at distance 1, and (3,1) is reported
ambiguous. -/
theorem C21_violated_history :
    seen (getFunctor2 exH exH (exT' [⟨10, 10, 3, 0, none⟩, ⟨11, 11, 1, 1, none⟩]) 3 1) = (some (10, false), 0) ∧
    seen (getFunctor2 exH exH (matAfter (getFunctor2 exH exH (exT' [⟨10, 10, 3, 0, none⟩, ⟨11, 11, 1, 1, none⟩]) 2 1)) 3 1) =
      (none, 1) := by decide +kernel

/-- **C21 violated: wrong functor.** Functors `P` for (3,0) and `Q` for (1,2). For (3,2) both are at distance 2, an error.
If (2,2) was looked up before, the copy of `Q` is at distance 1 and `Q` is used without any error. -/
theorem C21_violated_silent :
    seen (getFunctor2 exH exH (exT' [⟨10, 10, 3, 0, none⟩, ⟨11, 11, 1, 2, none⟩]) 3 2) = (none, 1) ∧
    seen (getFunctor2 exH exH (matAfter (getFunctor2 exH exH (exT' [⟨10, 10, 3, 0, none⟩, ⟨11, 11, 1, 2, none⟩]) 2 2)) 3 2) =
      (some (11, false), 0) ∧
    -- with `Q` for (0,2), `P` is nearer by one; after the same lookup `Q` is used all the same
    seen (getFunctor2 exH exH (exT' [⟨10, 10, 3, 0, none⟩, ⟨11, 11, 0, 2, none⟩]) 3 2) = (some (10, false), 0) ∧
    seen (getFunctor2 exH exH (matAfter (getFunctor2 exH exH (exT' [⟨10, 10, 3, 0, none⟩, ⟨11, 11, 0, 2, none⟩]) 2 2)) 3 2) =
      (some (11, false), 0) := by decide +kernel

/-- **C21 violated: repeated question.** The first call reports ambiguity, the same call made again
returns a functor, as the first candidate has been stored. -/
theorem C21_violated_repeat :
    seen (getFunctor2 exH exH (exT' [⟨10, 10, 0, 2, none⟩, ⟨11, 11, 1, 1, none⟩]) 1 2) = (none, 1) ∧
    seen (getFunctor2 exH exH (matAfter (getFunctor2 exH exH (exT' [⟨10, 10, 0, 2, none⟩, ⟨11, 11, 1, 1, none⟩]) 1 2)) 1 2) =
      (some (11, false), 0) := by decide +kernel

/-- **C21 violated: roles.** A functor for (1,0), where 1 derives from 0; for (2,3) as well as for (3,2) the
arguments are to be exchanged, so the object passed first is not the same one in both cases. -/
theorem C21_violated_roles :
    seen (getFunctor2 exH exH (exT [⟨10, 10, 1, 0, none⟩]) 2 3) = (some (10, true), 0) ∧
    seen (getFunctor2 exH exH (exT [⟨10, 10, 1, 0, none⟩]) 3 2) = (some (10, true), 0) := by decide +kernel

/-- a hierarchy with fewer classes than `exH`: 0 ← 1 -/
def exH2 : Hier where
  n := 2
  anc c := if c = 1 then [0] else []
  coh c := by
    by_cases h1 : c = 1
    · right; exact ⟨0, by simp [h1]⟩
    · left; simp [h1]
  lt c a h := by
    by_cases h1 : c = 1
    · simp [h1] at h; omega
    · simp [h1] at h

/-- **C21 violated: error message.** With more classes in the first dimension than in the second, reporting an ambiguity
reads outside the matrix. -/
theorem C21_violated_report : ∃ T, addAll2 exH exH2 false true clear2 [⟨10, 10, 1, 0, none⟩, ⟨11, 11, 0, 1, none⟩] = .ok T ∧
    seen (getFunctor2 exH exH2 T 1 1) = (none, 2) := ⟨_, rfl, by decide +kernel⟩

/-! ## C22: dependence on history -/

theorem write2_indep (same auto : Bool) (d d' : D2) (f : Fn) :
    (∃ a b, write2 same auto d f = .ok a ∧ write2 same auto d' f = .ok b) ∨
    (write2 same auto d f = .throws ∧ write2 same auto d' f = .throws) := by
  unfold write2
  split
  · split
    · exact Or.inl ⟨_, _, rfl, rfl⟩
    · split
      · exact Or.inl ⟨_, _, rfl, rfl⟩
      · exact Or.inr ⟨rfl, rfl⟩
  · exact Or.inl ⟨_, _, rfl, rfl⟩

theorem dispAdds_indep (H1 H2 : Hier) (same auto : Bool) (fs : List Fn) : ∀ (s s' : Disp), s.functors = s'.functors →
    (∃ a b, dispAdds H1 H2 same auto s fs = .ok a ∧ dispAdds H1 H2 same auto s' fs = .ok b ∧ a.functors = b.functors) ∨
    (dispAdds H1 H2 same auto s fs = .throws ∧ dispAdds H1 H2 same auto s' fs = .throws) ∨
    (dispAdds H1 H2 same auto s fs = .ub ∧ dispAdds H1 H2 same auto s' fs = .ub) := by
  induction fs with
  | nil => intro s s' h; exact Or.inl ⟨s, s', rfl, rfl, h⟩
  | cons f fs ih =>
    intro s s' h
    simp only [dispAdds, dispAdd, add2, h]
    split
    · rcases write2_indep same auto (grow2 s.d H1.n H2.n) (grow2 s'.d H1.n H2.n) f with ⟨a, b, ha, hb⟩ | ⟨ha, hb⟩
      · rw [ha, hb]
        exact ih _ _ rfl
      · right; left; rw [ha, hb]; exact ⟨rfl, rfl⟩
    · right; right; exact ⟨rfl, rfl⟩

/-- **C22, partial.** Assigning the list of functors gives a dispatcher that does not depend on what was registered or
looked up before (in success and in failure). Missing: registration of a single functor with `add`, and objects which
remember the functor used for them before; for these the claim is false (`C22_violated_*`). -/
theorem C22_set_partial (H1 H2 : Hier) (same auto : Bool) (s s' : Disp) (fs : List Fn) :
    functorsSet H1 H2 same auto s fs = functorsSet H1 H2 same auto s' fs := by
  unfold functorsSet
  rcases dispAdds_indep H1 H2 same auto fs { s with functors := [] } { s' with functors := [] } rfl with
    ⟨a, b, ha, hb, hab⟩ | ⟨ha, hb⟩ | ⟨ha, hb⟩
  · rw [ha, hb]
    show (do let d ← addAll2 H1 H2 same auto clear2 a.functors; pure (⟨a.functors, d⟩ : Disp)) = _
    rw [hab]; rfl
  · rw [ha, hb]
  · rw [ha, hb]

/-- the functors of different classes are all kept -/
theorem dispAdds_functors (H1 H2 : Hier) (same auto : Bool) (fs : List Fn) : ∀ (s s' : Disp),
    (s.functors ++ fs).Pairwise (fun f g => f.cls ≠ g.cls) → dispAdds H1 H2 same auto s fs = .ok s' →
    s'.functors = s.functors ++ fs := by
  induction fs with
  | nil => intro s s' _ h; cases h; simp
  | cons f fs ih =>
    intro s s' hp h
    simp only [dispAdds, dispAdd] at h
    cases ha : add2 H1 H2 same auto s.d f with
    | throws => rw [ha] at h; cases h
    | ub => rw [ha] at h; cases h
    | ok d =>
      rw [ha] at h
      have hn : s.functors.any (fun g => g.cls = f.cls) = false := by
        rw [List.any_eq_false]
        intro g hg
        have := (List.pairwise_append.mp hp).2.2 g hg f (List.mem_cons_self ..)
        simpa using this
      rw [hn] at h
      have := ih ⟨s.functors ++ [f], d⟩ s' (by simpa using hp) h
      simpa using this

/-- **C22, partial: the outcome.** After assigning functors of pairwise different classes the matrix is the one filled with
exactly these functors. -/
theorem C22_set_fresh_partial (H1 H2 : Hier) (same auto : Bool) (s s' : Disp) (fs : List Fn)
    (hp : fs.Pairwise (fun f g => f.cls ≠ g.cls)) (h : functorsSet H1 H2 same auto s fs = .ok s') :
    s'.functors = fs ∧ addAll2 H1 H2 same auto clear2 fs = .ok s'.d := by
  unfold functorsSet at h
  cases ha : dispAdds H1 H2 same auto { s with functors := [] } fs with
  | throws => rw [ha] at h; cases h
  | ub => rw [ha] at h; cases h
  | ok s1 =>
    have hf := dispAdds_functors H1 H2 same auto fs _ s1 (by simpa using hp) ha
    simp only [List.nil_append] at hf
    rw [ha] at h
    change (do let d ← addAll2 H1 H2 same auto clear2 s1.functors; pure (⟨s1.functors, d⟩ : Disp)) = _ at h
    rw [hf] at h
    cases hb : addAll2 H1 H2 same auto clear2 fs with
    | throws => rw [hb] at h; cases h
    | ub => rw [hb] at h; cases h
    | ok d => rw [hb] at h; cases h; exact ⟨rfl, rfl⟩

example : ∃ s', functorsSet exH exH true true ⟨[⟨3, 3, 0, 0, none⟩], exT [⟨3, 3, 0, 0, none⟩]⟩
    [⟨10, 10, 1, 4, none⟩, ⟨11, 11, 3, 3, none⟩] = .ok s' ∧
    s'.functors = [⟨10, 10, 1, 4, none⟩, ⟨11, 11, 3, 3, none⟩] := ⟨_, rfl, rfl⟩

/-- **C22 violated: `add`.** A functor for class 0; class 3 is looked up; a functor for class 1 is added. Class 3 still
goes to the functor of class 0, although class 1 is nearer. -/
theorem C22_violated_add : ∃ d d' d'', adds1 exH clear1 [(0, "a")] = .ok d ∧ looks1 exH d [3] = .ok d' ∧
    add1 exH d' 1 "b" = .ok d'' ∧ (∃ e, locate1 exH d'' 3 = .ok (e, some "a")) ∧
    nearest exH (lastReg [(0, "a"), (1, "b")]) 3 = some "b" := ⟨_, _, _, rfl, rfl, rfl, ⟨_, rfl⟩, by decide +kernel⟩

/-- **C22 violated: objects.** An object of class 3 is dispatched to "a" and remembers it; the functors are replaced
altogether by "b"; the object still goes to "a", a new object of the same class to "b". -/
theorem C22_violated_objects : ∃ d e c d', adds1 exH clear1 [(0, "a")] = .ok d ∧ useFunctor exH d none 3 = .ok (e, c) ∧
    adds1 exH clear1 [(0, "b")] = .ok d' ∧ (∃ x, useFunctor exH d' c 3 = .ok (x, some "a")) ∧
    (∃ x, useFunctor exH d' none 3 = .ok (x, some "b")) := ⟨_, _, _, _, rfl, rfl, rfl, ⟨_, rfl⟩, ⟨_, rfl⟩⟩

/-- **C22 violated: dropped functor.** Of two functors of the same class only the first one is kept by an
assignment. -/
theorem C22_violated_dropped : ∃ s', functorsSet exH exH true true ⟨[], clear2⟩ [⟨10, 10, 0, 4, none⟩, ⟨11, 10, 1, 4, none⟩] =
    .ok s' ∧ seen (getFunctor2 exH exH s'.d 1 4) = (some (10, false), 0) ∧
    seen (getFunctor2 exH exH (exT [⟨10, 10, 0, 4, none⟩, ⟨11, 10, 1, 4, none⟩]) 1 4) = (some (11, false), 0) :=
  ⟨_, rfl, by decide +kernel, by decide +kernel⟩

end Verif.Dispatch
