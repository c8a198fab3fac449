import Mathlib.Algebra.BigOperators.Group.List.Basic
import Verif.Accu.Model
/-! # Helper lemmas on the array accumulator -/
namespace Verif.Accu
open Verif

variable {T : Type}

/-- the memory of one thread holds the values `x` below `sz` -/
def RepC (nCL sz : Nat) (c : Option (Chunk T)) (x : Nat → T) : Prop :=
  (nCL = 0 ∧ c = none) ∨ (0 < nCL ∧ ∃ ch, c = some ch ∧ ch.lines = nCL ∧ ∀ i < sz, ch.data i = some (x i))

/-- the same for all threads -/
def RepL (nCL sz : Nat) : List (Option (Chunk T)) → List (Nat → T) → Prop
  | [], [] => True
  | c :: cs, x :: xs => RepC nCL sz c x ∧ RepL nCL sz cs xs
  | _, _ => False

/-- the accumulator `a` is well formed and thread `k` has the contributions `xs[k]` -/
structure Rep (a : Arr T) (xs : List (Nat → T)) : Prop where
  perCL : 0 < a.perCL
  room : a.sz ≤ a.nCL * a.perCL
  chunks : RepL a.nCL a.sz a.chunks xs

/-- sum of the contributions of all threads -/
def val [Zero T] [Add T] (xs : List (Nat → T)) (i : Nat) : T := (xs.map (· i)).sum

theorem nCLforN_room (p n : Nat) (hp : 0 < p) : n ≤ nCLforN p n * p := by
  unfold nCLforN
  have h := Nat.div_add_mod n p
  have h2 := Nat.mod_lt n hp
  split
  · rename_i h0; rw [h0] at h; rw [Nat.add_zero, Nat.mul_comm]; omega
  · rw [Nat.add_mul, Nat.mul_comm (n / p)]; omega

theorem nCLforN_le (p n k : Nat) (hp : 0 < p) (h : n ≤ k * p) : nCLforN p n ≤ k := by
  unfold nCLforN
  have h1 := Nat.div_add_mod n p
  split
  · rw [Nat.add_zero]; exact (Nat.div_le_iff_le_mul_add_pred hp).2 (by rw [Nat.mul_comm]; omega)
  · have : n / p < k := by
      rw [Nat.div_lt_iff_lt_mul hp]
      rename_i h0
      rcases Nat.lt_or_ge n (k * p) with h' | h'
      · exact h'
      · have : n = k * p := by omega
        rw [this, Nat.mul_mod_left] at h0; exact absurd rfl h0
    omega

theorem nCLforN_pos (p n : Nat) (hp : 0 < p) (hn : 0 < n) : 0 < nCLforN p n := by
  have := nCLforN_room p n hp
  rcases Nat.eq_zero_or_pos (nCLforN p n) with h | h
  · rw [h] at this; omega
  · exact h

theorem RepL.length {nCL sz : Nat} : ∀ {cs : List (Option (Chunk T))} {xs}, RepL nCL sz cs xs → cs.length = xs.length
  | [], [], _ => rfl
  | _ :: _, _ :: _, h => by simp [RepL.length h.2]
  | [], _ :: _, h => by cases h
  | _ :: _, [], h => by cases h

theorem RepL.none_of {cs : List (Option (Chunk T))} {xs : List (Nat → T)} {sz : Nat} (h : RepL 0 sz cs xs) : ∀ c ∈ cs, c = none := by
  induction cs generalizing xs with
  | nil => intro c hc; cases hc
  | cons c cs ih =>
    cases xs with
    | nil => cases h
    | cons x xs =>
      intro d hd
      rcases List.mem_cons.1 hd with rfl | hd
      · rcases h.1 with h1 | h1
        · exact h1.2
        · omega
      · exact ih h.2 d hd

/-! ### reading -/

theorem at_ok {nCL sz p i : Nat} {c : Option (Chunk T)} {x : Nat → T} (h : RepC nCL sz c x) (hi : i < sz) (hr : sz ≤ nCL * p) :
    Chunk.at p c i = .ok (x i) := by
  rcases h with ⟨h, _⟩ | ⟨_, ch, rfl, hl, hd⟩
  · subst h; omega
  · simp only [Chunk.at, hl]; rw [if_pos (by omega), hd i hi]

theorem sum_ok [AddCommMonoid T] {nCL sz p i : Nat} (hi : i < sz) (hr : sz ≤ nCL * p) :
    ∀ (cs : List (Option (Chunk T))) (xs : List (Nat → T)) (acc : T), RepL nCL sz cs xs → sumChunks p i acc cs = .ok (acc + val xs i)
  | [], [], acc, _ => by simp [sumChunks, val]
  | c :: cs, x :: xs, acc, h => by
    simp only [sumChunks, at_ok h.1 hi hr]
    rw [sum_ok hi hr cs xs _ h.2]; simp [val, add_assoc]
  | [], _ :: _, _, h => by cases h
  | _ :: _, [], _, h => by cases h

theorem get_ok [AddCommMonoid T] {a : Arr T} {xs : List (Nat → T)} (h : Rep a xs) {i : Nat} (hi : i < a.sz) :
    a.get i = .ok (val xs i) := by
  rw [Arr.get, sum_ok hi h.room a.chunks xs 0 h.chunks, zero_add]

/-! ### writing -/

/-- function update -/
def upd (x : Nat → T) (i : Nat) (v : T) : Nat → T := fun j => if j = i then v else x j

theorem put_ok {nCL sz p i : Nat} {c : Option (Chunk T)} {x : Nat → T} (h : RepC nCL sz c x) (hi : i < sz) (hr : sz ≤ nCL * p) (v : T) :
    ∃ c', Chunk.put p c i v = .ok c' ∧ RepC nCL sz c' (upd x i v) := by
  rcases h with ⟨h, _⟩ | ⟨h0, ch, rfl, hl, hd⟩
  · subst h; omega
  · refine ⟨some { ch with data := fun j => if j = i then some v else ch.data j }, ?_, Or.inr ⟨h0, _, rfl, hl, ?_⟩⟩
    · show (if _ then _ else _) = _; rw [if_pos (by rw [hl]; omega)]
    intro j hj
    by_cases e : j = i
    · simp [e, upd]
    · simp [e, upd, hd j hj]

theorem each_put [Zero T] {nCL sz p i : Nat} (hi : i < sz) (hr : sz ≤ nCL * p) :
    ∀ (cs : List (Option (Chunk T))) (xs : List (Nat → T)), RepL nCL sz cs xs →
    ∃ cs', eachChunk (fun c => Chunk.put p c i 0) cs = .ok cs' ∧ RepL nCL sz cs' (xs.map fun x => upd x i 0)
  | [], [], _ => ⟨[], rfl, trivial⟩
  | c :: cs, x :: xs, h => by
    obtain ⟨c', h1, h2⟩ := put_ok h.1 hi hr 0
    obtain ⟨cs', h3, h4⟩ := each_put hi hr cs xs h.2
    exact ⟨c' :: cs', by simp only [eachChunk, h1, h3], h2, h4⟩
  | [], _ :: _, h => by cases h
  | _ :: _, [], h => by cases h

theorem val_zero [AddCommMonoid T] (xs : List (Nat → T)) (i j : Nat) :
    val (xs.map fun x => upd x i 0) j = if j = i then 0 else val xs j := by
  unfold val
  by_cases h : j = i
  · subst h; rw [if_pos rfl]
    induction xs with
    | nil => rfl
    | cons x xs ih => simp only [List.map_cons, List.sum_cons, ih]; simp [upd]
  · rw [if_neg h]
    induction xs with
    | nil => rfl
    | cons x xs ih => simp only [List.map_cons, List.sum_cons, ih]; simp [upd, h]

theorem set_ok [AddCommMonoid T] {a : Arr T} {xs : List (Nat → T)} (h : Rep a xs) (hn : xs ≠ []) {i : Nat} (hi : i < a.sz) (v : T) :
    ∃ a' xs', a.set i v = .ok a' ∧ Rep a' xs' ∧ xs'.length = xs.length ∧ a'.sz = a.sz ∧ a'.nCL = a.nCL ∧ a'.perCL = a.perCL ∧
      ∀ j, val xs' j = if j = i then v else val xs j := by
  have hc := h.chunks
  cases hcs : a.chunks with
  | nil =>
    rw [hcs] at hc
    cases xs with
    | nil => exact absurd rfl hn
    | cons x xs => cases hc
  | cons c cs =>
    rw [hcs] at hc
    cases xs with
    | nil => cases hc
    | cons x xs =>
      obtain ⟨c', h1, h2⟩ := put_ok hc.1 hi h.room v
      obtain ⟨cs', h3, h4⟩ := each_put hi h.room cs xs hc.2
      refine ⟨{ a with chunks := c' :: cs' }, upd x i v :: xs.map (fun x => upd x i 0), ?_, ⟨h.perCL, h.room, h2, h4⟩,
        by simp, rfl, rfl, rfl, ?_⟩
      · simp only [Arr.set, hcs, setChunks, h1, h3]
      · intro j
        have := val_zero xs i j
        have e : val (upd x i v :: xs.map (fun x => upd x i 0)) j = upd x i v j + val (xs.map fun x => upd x i 0) j := by
          simp [val]
        rw [e, this]
        by_cases hj : j = i
        · simp [hj, upd]
        · simp [hj, upd, val]

theorem RepL.get {nCL sz : Nat} : ∀ {cs : List (Option (Chunk T))} {xs : List (Nat → T)}, RepL nCL sz cs xs → ∀ th (hth : th < xs.length),
    ∃ c, cs[th]? = some c ∧ RepC nCL sz c xs[th]
  | c :: cs, x :: xs, h, 0, _ => ⟨c, rfl, h.1⟩
  | c :: cs, x :: xs, h, th + 1, hth => RepL.get h.2 th (by simpa using hth)
  | [], [], _, th, hth => by simp at hth
  | [], _ :: _, h, _, _ => by cases h
  | _ :: _, [], h, _, _ => by cases h

theorem RepL.set {nCL sz : Nat} : ∀ {cs : List (Option (Chunk T))} {xs : List (Nat → T)}, RepL nCL sz cs xs → ∀ th c' x',
    RepC nCL sz c' x' → RepL nCL sz (cs.set th c') (xs.set th x')
  | c :: cs, x :: xs, h, 0, c', x', h' => ⟨h', h.2⟩
  | c :: cs, x :: xs, h, th + 1, c', x', h' => ⟨h.1, RepL.set h.2 th c' x' h'⟩
  | [], [], _, th, c', x', h' => trivial
  | [], _ :: _, h, _, _, _, _ => by cases h
  | _ :: _, [], h, _, _, _, _ => by cases h

theorem val_set [AddCommMonoid T] (xs : List (Nat → T)) (th : Nat) (hth : th < xs.length) (i : Nat) (v : T) (j : Nat) :
    val (xs.set th (upd xs[th] i (xs[th] i + v))) j = if j = i then val xs i + v else val xs j := by
  induction xs generalizing th with
  | nil => simp at hth
  | cons x xs ih =>
    cases th with
    | zero =>
      simp only [List.set_cons_zero, List.getElem_cons_zero, val, List.map_cons, List.sum_cons, upd]
      by_cases h : j = i
      · subst h; simp only [if_true]; rw [add_right_comm]
      · simp [h]
    | succ th =>
      have := ih th (by simpa using hth)
      have e : ∀ (y : Nat → T) (ys : List (Nat → T)), val (y :: ys) j = y j + val ys j := by intro y ys; simp [val]
      simp only [List.set_cons_succ, List.getElem_cons_succ, e, this]
      by_cases h : j = i
      · subst h; simp only [if_true]; simp [val, add_assoc]
      · simp [h]

theorem add_ok [AddCommMonoid T] {a : Arr T} {xs : List (Nat → T)} (h : Rep a xs) {th : Nat} (hth : th < xs.length) {i : Nat}
    (hi : i < a.sz) (v : T) :
    ∃ a' xs', a.add th i v = .ok a' ∧ Rep a' xs' ∧ xs'.length = xs.length ∧ a'.sz = a.sz ∧ a'.nCL = a.nCL ∧ a'.perCL = a.perCL ∧
      ∀ j, val xs' j = if j = i then val xs i + v else val xs j := by
  obtain ⟨c, h1, h2⟩ := h.chunks.get th hth
  obtain ⟨c', h3, h4⟩ := put_ok h2 hi h.room (xs[th] i + v)
  refine ⟨{ a with chunks := a.chunks.set th c' }, xs.set th (upd xs[th] i (xs[th] i + v)), ?_, ⟨h.perCL, h.room, h.chunks.set th c' _ h4⟩,
    by simp, rfl, rfl, rfl, fun j => val_set xs th hth i v j⟩
  simp only [Arr.add, h1, at_ok h2 hi h.room, h3]

/-! ### resizing -/

theorem zero_ok [Zero T] {nCL sz n p : Nat} {c : Option (Chunk T)} {x : Nat → T} (h : RepC nCL sz c x) (hr : n ≤ nCL * p) :
    ∃ c', zeroFrom p c sz n = .ok c' ∧ RepC nCL n c' (fun i => if i < sz then x i else 0) := by
  unfold zeroFrom
  by_cases hlt : sz < n
  · rw [if_pos hlt]
    rcases h with ⟨h, rfl⟩ | ⟨h0, ch, rfl, hl, hd⟩
    · subst h; omega
    · refine ⟨some { ch with data := fun j => if sz ≤ j ∧ j < n then some 0 else ch.data j }, ?_, Or.inr ⟨h0, _, rfl, hl, ?_⟩⟩
      · show (if _ then _ else _) = _; rw [if_pos (by rw [hl]; exact hr)]
      intro i hi
      by_cases h' : i < sz
      · simp only [h', if_true]; rw [if_neg (by omega), hd i h']
      · simp only [h', if_false]; rw [if_pos (by omega)]
  · rw [if_neg hlt]
    refine ⟨c, rfl, ?_⟩
    rcases h with h | ⟨h0, ch, rfl, hl, hd⟩
    · exact Or.inl h
    · refine Or.inr ⟨h0, ch, rfl, hl, fun i hi => ?_⟩
      have h' : i < sz := by omega
      simp only [h', if_true]; exact hd i h'

theorem each_zero [Zero T] {nCL sz n p : Nat} (hr : n ≤ nCL * p) :
    ∀ (cs : List (Option (Chunk T))) (xs : List (Nat → T)), RepL nCL sz cs xs →
    ∃ cs', eachChunk (fun c => zeroFrom p c sz n) cs = .ok cs' ∧
      RepL nCL n cs' (xs.map fun x i => if i < sz then x i else 0)
  | [], [], _ => ⟨[], rfl, trivial⟩
  | c :: cs, x :: xs, h => by
    obtain ⟨c', h1, h2⟩ := zero_ok h.1 hr
    obtain ⟨cs', h3, h4⟩ := each_zero hr cs xs h.2
    exact ⟨c' :: cs', by simp only [eachChunk, h1, h3], h2, h4⟩
  | [], _ :: _, h => by cases h
  | _ :: _, [], h => by cases h

theorem grow_none {p new sz : Nat} (hnew : 0 < new) : ∀ (cs : List (Option (Chunk T))) (xs : List (Nat → T)) (k : Nat),
    RepL 0 sz cs xs → sz = 0 → ∃ cs', growLoop p new k cs = .ok cs' ∧ RepL new sz cs' xs
  | [], [], _, _, _ => ⟨[], rfl, trivial⟩
  | c :: cs, x :: xs, k, h, hs => by
    obtain ⟨cs', h3, h4⟩ := grow_none (p := p) hnew cs xs new h.2 hs
    have hc : c = none := by rcases h.1 with h1 | h1
                             · exact h1.2
                             · omega
    subst hc
    refine ⟨some ⟨new, fun _ => none⟩ :: cs', by simp only [growLoop, growOne, h3], Or.inr ⟨hnew, _, rfl, rfl, ?_⟩, h4⟩
    intro i hi; omega
  | [], _ :: _, _, h, _ => by cases h
  | _ :: _, [], _, h, _ => by cases h

theorem grow_one {p new nCL sz : Nat} (h0 : 0 < nCL) (hnew : nCL < new) (hr : sz ≤ nCL * p) (c : Option (Chunk T)) (x : Nat → T)
    (h : RepC nCL sz c x) : ∃ c', growOne p nCL new c = .ok c' ∧ RepC new sz (some c') x := by
  rcases h with h | ⟨_, ch, rfl, hl, hd⟩
  · omega
  · refine ⟨⟨new, fun i => if i < nCL * p then ch.data i else none⟩, by simp only [growOne, hl]; rw [if_pos (Nat.le_refl _)], Or.inr ⟨by omega, _, rfl, rfl, ?_⟩⟩
    intro i hi
    have : i < nCL * p := by omega
    simp only [this, if_true]; exact hd i hi

theorem resize_ok [AddCommMonoid T] {a : Arr T} {xs : List (Nat → T)} (h : Rep a xs) (n : Nat)
    (hs : xs.length = 1 ∨ a.nCL = 0 ∨ n ≤ a.nCL * a.perCL) :
    ∃ a' xs', a.resize n = .ok a' ∧ Rep a' xs' ∧ xs'.length = xs.length ∧ a'.sz = n ∧
      a'.nCL = max a.nCL (nCLforN a.perCL n) ∧ a'.perCL = a.perCL ∧ ∀ j < n, val xs' j = if j < a.sz then val xs j else 0 := by
  have hv : ∀ (xs : List (Nat → T)) (s j : Nat), val (xs.map fun x i => if i < s then x i else 0) j = if j < s then val xs j else 0 := by
    intro xs s j
    unfold val
    induction xs with
    | nil => simp
    | cons x xs ih =>
      simp only [List.map_cons, List.sum_cons, ih]
      by_cases hj : j < s <;> simp [hj]
  unfold Arr.resize
  by_cases hn : n = a.sz
  · rw [if_pos hn]
    refine ⟨a, xs, rfl, h, rfl, hn.symm, ?_, rfl, ?_⟩
    · have := nCLforN_le a.perCL n a.nCL h.perCL (by rw [hn]; exact h.room)
      omega
    · intro j hj; rw [if_pos (by omega)]
  · rw [if_neg hn, if_neg (by have := h.perCL; omega)]
    by_cases hg : nCLforN a.perCL n > a.nCL
    · have hgrow : ∃ cs', growLoop a.perCL (nCLforN a.perCL n) a.nCL a.chunks = .ok cs' ∧ RepL (nCLforN a.perCL n) a.sz cs' xs := by
        rcases Nat.eq_zero_or_pos a.nCL with h0 | h0
        · have hsz : a.sz = 0 := by have := h.room; rw [h0] at this; omega
          have hc := h.chunks
          rw [h0] at hc
          exact grow_none (by omega) a.chunks xs _ hc hsz
        · have h1 : xs.length = 1 := by
            rcases hs with hs | hs | hs
            · exact hs
            · omega
            · have := nCLforN_le a.perCL n a.nCL h.perCL hs; omega
          have hc := h.chunks
          match hcs : a.chunks, xs, h1, hc with
          | [c], [x], _, hc =>
            obtain ⟨c', h2, h3⟩ := grow_one h0 hg h.room c x hc.1
            exact ⟨[some c'], by simp only [growLoop, h2], h3, trivial⟩
          | [], [x], _, hc => cases hc
          | _ :: _ :: _, [x], _, hc => cases hc.2
      obtain ⟨cs, h1, h2⟩ := hgrow
      obtain ⟨cs', h3, h4⟩ := each_zero (n := n) (nCLforN_room a.perCL n h.perCL) cs xs h2
      refine ⟨{ a with chunks := cs', sz := n, nCL := nCLforN a.perCL n }, xs.map (fun x i => if i < a.sz then x i else 0), ?_,
        ⟨h.perCL, nCLforN_room a.perCL n h.perCL, h4⟩, by simp, rfl, ?_, rfl, fun j _ => hv xs a.sz j⟩
      · simp only [if_pos hg, h1, h3]
      · show nCLforN a.perCL n = _; omega
    · have hroom : n ≤ a.nCL * a.perCL := by
        have h1 := nCLforN_room a.perCL n h.perCL
        have h2 : nCLforN a.perCL n * a.perCL ≤ a.nCL * a.perCL := Nat.mul_le_mul_right _ (by omega)
        omega
      obtain ⟨cs', h3, h4⟩ := each_zero (n := n) hroom a.chunks xs h.chunks
      refine ⟨{ a with chunks := cs', sz := n, nCL := a.nCL }, xs.map (fun x i => if i < a.sz then x i else 0), ?_,
        ⟨h.perCL, hroom, h4⟩, by simp, rfl, ?_, rfl, fun j _ => hv xs a.sz j⟩
      · simp only [if_neg hg, h3]
      · show a.nCL = _; omega

/-- growing beyond the allocated lines with two threads or more reads outside the old memory -/
theorem resize_ub [Zero T] {a : Arr T} {xs : List (Nat → T)} (h : Rep a xs) (n : Nat) (ht : 2 ≤ xs.length) (h0 : 0 < a.nCL)
    (hn : n > a.nCL * a.perCL) : a.resize n = .ub := by
  have hg : nCLforN a.perCL n > a.nCL := by
    have h1 := nCLforN_room a.perCL n h.perCL
    refine Nat.lt_of_not_le fun h2 => ?_
    have h3 : nCLforN a.perCL n * a.perCL ≤ a.nCL * a.perCL := Nat.mul_le_mul_right _ h2
    omega
  have hc := h.chunks
  have hloop : growLoop a.perCL (nCLforN a.perCL n) a.nCL a.chunks = .ub := by
    match hcs : a.chunks, xs, ht, hc with
    | c :: d :: cs, x :: y :: ys, _, hc =>
      obtain ⟨c', h2, _⟩ := grow_one h0 hg h.room c x hc.1
      obtain ⟨hd, _⟩ := hc.2
      rcases hd with hd | ⟨_, ch, rfl, hl, _⟩
      · omega
      · have : growOne a.perCL (nCLforN a.perCL n) (nCLforN a.perCL n) (some ch) = .ub := by
          simp only [growOne, hl]; rw [if_neg (by omega)]
        simp only [growLoop, h2, this]
    | [], _ :: _ :: _, _, hc => cases hc
    | [c], _ :: _ :: _, _, hc => cases hc.2
  unfold Arr.resize
  rw [if_neg (by have := h.room; omega), if_neg (by have := h.perCL; omega)]
  simp only [if_pos hg, hloop]

theorem new_rep (p n : Nat) (hp : 0 < p) [Zero T] : Rep (Arr.new p n : Arr T) (List.replicate n fun _ => 0) := by
  refine ⟨hp, Nat.zero_le _, ?_⟩
  show RepL 0 0 (List.replicate n none) _
  induction n with
  | zero => trivial
  | succ n ih => rw [List.replicate_succ, List.replicate_succ]; exact ⟨Or.inl ⟨rfl, rfl⟩, ih⟩

end Verif.Accu
