import Verif.Attr.Model
/-!
# C50, C51, C70: tags, blocked degrees of freedom, materials
-/
namespace Verif.Attr
open Verif

/-! ## C51: blocked degrees of freedom -/

/-- the letters a user may write, in canonical order; letter number `k` stands for bit `k` -/
def letters : List Char := ['x', 'y', 'z', 'X', 'Y', 'Z']

/-- the canonical form of what the user wrote: the recognised letters it contains, each once, in order -/
def canonical (s : List Char) : List Char := letters.filter fun c => s.contains c

private theorem getDof_testBit (b : Nat) (c : Char) (k : Nat) :
    (getDof b c).testBit k = (b.testBit k || (letters[k]? == some c)) := by
  have key : ∀ m : Nat, m < 6 → (2 ^ m).testBit k = (letters[k]? == letters[m]?) := by
    intro m hm
    by_cases hk : k < 6
    · have : ∀ m < 6, ∀ k < 6, (2 ^ m).testBit k = (letters[k]? == letters[m]?) := by decide
      exact this m hm k hk
    · rw [Nat.testBit_two_pow]
      have h1 : letters[k]? = none := by rw [List.getElem?_eq_none]; simp [letters]; omega
      have h2 : ∃ c, letters[m]? = some c := ⟨letters[m]'(by simp [letters]; omega), by simp⟩
      obtain ⟨c, h2⟩ := h2
      rw [h1, h2]; simp; omega
  have hn : ∀ c : Char, c ∉ letters → (letters[k]? == some c) = false := by
    intro c hc
    cases h : letters[k]? with
    | none => rfl
    | some d =>
      have hd : d ∈ letters := List.mem_of_getElem? h
      have : d ≠ c := fun e => hc (e ▸ hd)
      simp [this]
  unfold getDof
  split
  · subst c; rw [Nat.testBit_or]; exact congrArg _ (key 0 (by omega))
  split
  · subst c; rw [Nat.testBit_or]; exact congrArg _ (key 1 (by omega))
  split
  · subst c; rw [Nat.testBit_or]; exact congrArg _ (key 2 (by omega))
  split
  · subst c; rw [Nat.testBit_or]; exact congrArg _ (key 3 (by omega))
  split
  · subst c; rw [Nat.testBit_or]; exact congrArg _ (key 4 (by omega))
  split
  · subst c; rw [Nat.testBit_or]; exact congrArg _ (key 5 (by omega))
  · rw [hn c (by simp [letters, *])]; simp

private theorem fold_testBit (s : List Char) (k : Nat) : ∀ b, (s.foldl getDof b).testBit k =
    (b.testBit k || s.any (fun c => letters[k]? == some c)) := by
  induction s with
  | nil => intro b; simp
  | cons c s ih => intro b; rw [List.foldl_cons, ih, getDof_testBit]; simp [Bool.or_assoc]

private theorem set_testBit (o : Nat) (s : List Char) (k : Nat) :
    (dofsSet o s).testBit k = s.any (fun c => letters[k]? == some c) := by
  simp [dofsSet, fold_testBit]

private theorem and_pow (b k : Nat) : (b &&& 2 ^ k ≠ 0) ↔ b.testBit k = true := by
  cases hb : b.testBit k with
  | true =>
    refine ⟨fun _ => rfl, fun _ h => ?_⟩
    have : (b &&& 2 ^ k).testBit k = true := by rw [Nat.testBit_and, hb, Nat.testBit_two_pow_self]; rfl
    rw [h] at this; simp at this
  | false =>
    refine ⟨fun h => absurd ?_ h, (fun h => by cases h)⟩
    apply Nat.eq_of_testBit_eq
    intro j
    rw [Nat.testBit_and, Nat.testBit_two_pow]
    by_cases e : k = j
    · subst e; simp [hb]
    · simp [e]

/-- the string read is made of the letters whose bit is set, in canonical order -/
private theorem get_eq (b : Nat) : dofsGet b =
    (if b.testBit 0 then ['x'] else []) ++ (if b.testBit 1 then ['y'] else []) ++ (if b.testBit 2 then ['z'] else []) ++
    (if b.testBit 3 then ['X'] else []) ++ (if b.testBit 4 then ['Y'] else []) ++ (if b.testBit 5 then ['Z'] else []) := by
  have e : ∀ k ch ret, setDof b (2 ^ k) ch ret = ret ++ (if b.testBit k then [ch] else []) := by
    intro k ch ret; unfold setDof
    by_cases h : b.testBit k = true
    · rw [if_pos ((and_pow b k).2 h), if_pos h]
    · rw [if_neg (fun x => h ((and_pow b k).1 x)), if_neg h]; simp
  have e0 := e 0; have e1 := e 1; have e2 := e 2; have e3 := e 3; have e4 := e 4; have e5 := e 5
  simp only [show (2:Nat)^0 = DOF_X from rfl, show (2:Nat)^1 = DOF_Y from rfl, show (2:Nat)^2 = DOF_Z from rfl,
    show (2:Nat)^3 = DOF_RX from rfl, show (2:Nat)^4 = DOF_RY from rfl, show (2:Nat)^5 = DOF_RZ from rfl] at e0 e1 e2 e3 e4 e5
  simp only [dofsGet, e0, e1, e2, e3, e4, e5, List.nil_append]

private theorem mem_get (b k : Nat) (c : Char) (h : letters[k]? = some c) : c ∈ dofsGet b ↔ b.testBit k = true := by
  rw [get_eq]
  match k with
  | 0 | 1 | 2 | 3 | 4 | 5 => simp [letters] at h; subst h; simp
  | k + 6 => simp [letters] at h

/-- **C51 (1)**: reading `blockedDOFs` after assigning any string gives the recognised letters of that
string, each once, in the order `xyzXYZ`; whatever was blocked before is forgotten. -/
theorem C51_read_after_write (old : Nat) (s : List Char) : dofsGet (dofsSet old s) = canonical s := by
  have hb : ∀ k c, letters[k]? = some c → (dofsSet old s).testBit k = s.contains c := by
    intro k c h
    rw [set_testBit, h]
    induction s with
    | nil => rfl
    | cons a s ih =>
      simp only [List.any_cons, List.contains_cons, ih]
      congr 1
  rw [get_eq, hb 0 'x' rfl, hb 1 'y' rfl, hb 2 'z' rfl, hb 3 'X' rfl, hb 4 'Y' rfl, hb 5 'Z' rfl]
  unfold canonical letters
  simp only [List.filter_cons, List.filter_nil]
  cases s.contains 'x' <;> cases s.contains 'y' <;> cases s.contains 'z' <;> cases s.contains 'X' <;>
    cases s.contains 'Y' <;> cases s.contains 'Z' <;> rfl

example : dofsGet (dofsSet 63 "Zqzxx".toList) = "xzZ".toList := by decide

/-- **C51 (2)**: writing back the string that was read leaves the blocked degrees of freedom as they were. -/
theorem C51_write_back (b : Nat) (h : b < 64) : dofsSet b (dofsGet b) = b := by
  apply Nat.eq_of_testBit_eq
  intro k
  rw [set_testBit]
  by_cases hk : k < 6
  · have h2 : letters[k]? = some (letters[k]'(by simp [letters]; omega)) := by simp
    have := mem_get b k _ h2
    rw [h2]
    cases hb : b.testBit k with
    | true =>
      rw [List.any_eq_true]
      exact ⟨_, this.2 hb, by simp⟩
    | false =>
      rw [List.any_eq_false]
      intro c hc
      intro e
      have e' : letters[k]'(by simp [letters]; omega) = c := by simpa using e
      rw [← e', this, hb] at hc; cases hc
  · have h1 : letters[k]? = none := by rw [List.getElem?_eq_none]; simp [letters]; omega
    rw [h1]
    have : b.testBit k = false := by
      apply Nat.testBit_lt_two_pow
      calc b < 2 ^ 6 := h
        _ ≤ 2 ^ k := Nat.pow_le_pow_right (by omega) (by omega)
    rw [this]; simp

example : dofsSet 41 (dofsGet 41) = 41 := C51_write_back 41 (by omega)

/-- **C51 (3)**: every assignment, by string, by two vectors or through `Body.dynamic`, produces a bit
pattern for which (2) applies. -/
theorem C51_always_below_64 (old : Nat) (s : List Char) (d0 d1 d2 r0 r1 r2 d : Bool) :
    dofsSet old s < 64 ∧ dofsFromVectors d0 d1 d2 r0 r1 r2 < 64 ∧ setDynamic old d < 64 := by
  refine ⟨?_, ?_, ?_⟩
  · apply Nat.lt_pow_two_of_testBit (n := 6)
    intro k hk
    rw [set_testBit]
    have h1 : letters[k]? = none := by rw [List.getElem?_eq_none]; simp [letters]; omega
    rw [h1]; simp
  · revert d0 d1 d2 r0 r1 r2; decide
  · revert d; unfold setDynamic; decide

/-- **C51 (4)**: the letter of an axis is in the string read back exactly when the bit that the solver
consults for this axis (`axisDOF`) is set, and exactly when the user wrote that letter; unrecognised
letters make no difference. -/
theorem C51_letter_is_axis (old : Nat) (s : List Char) (axis : Nat) (rot : Bool) (ha : axis < 3) :
    let c := letters[axis + if rot then 3 else 0]'(by cases rot <;> simp [letters] <;> omega)
    ((dofsSet old s) &&& axisDOF axis rot ≠ 0 ↔ c ∈ s) ∧ (c ∈ dofsGet (dofsSet old s) ↔ c ∈ s) := by
  intro c
  have hc : letters[axis + if rot then 3 else 0]? = some c := by simp [c]
  have h1 : (dofsSet old s).testBit (axis + if rot then 3 else 0) = true ↔ c ∈ s := by
    rw [set_testBit, hc, List.any_eq_true]
    constructor
    · rintro ⟨a, h, e⟩; simp at e; rw [e]; exact h
    · intro h; exact ⟨c, h, by simp⟩
  refine ⟨?_, ?_⟩
  · rw [← h1, ← and_pow, axisDOF, Nat.one_shiftLeft]
  · rw [mem_get _ _ _ hc, h1]

example : (dofsSet 0 "Yz".toList) &&& axisDOF 1 true ≠ 0 := ((C51_letter_is_axis 0 "Yz".toList 1 true (by omega)).1).2 (by decide)

/-- **C51 (5)**: a body is dynamic exactly unless all six letters are written. -/
theorem C51_dynamic (old : Nat) (s : List Char) :
    isDynamic (dofsSet old s) = false ↔ ∀ c ∈ letters, c ∈ s := by
  have hall : ∀ b < 64, (isDynamic b = false ↔ dofsGet b = letters) := by decide
  rw [hall _ (C51_always_below_64 old s true true true true true true true).1, C51_read_after_write, canonical,
    List.filter_eq_self]
  simp

example : isDynamic (dofsSet 0 "XYZxy".toList) = true := by decide

/-! ## C50: tags -/

/-- one use of `O.tags[key] = item` -/
structure Put where
  key : Str
  item : Str

/-- a user program assigning tags; an assignment that raises leaves the tags alone -/
def run (tags : List Str) : List Put → List Str
  | [] => tags
  | p :: ps => match setItem tags p.key p.item with
    | .ok t => run t ps
    | _ => run tags ps

/-- specification: a dictionary, as a partial function -/
abbrev Dict := Str → Option Str

/-- assignment to a dictionary; keys with `=` are rejected -/
def Dict.put (d : Dict) (p : Put) : Dict := if '=' ∈ p.key then d else fun k => if k = p.key then some p.item else d k

/-- `tags` stores exactly the dictionary `d`: the entries are `key=value` for keys without `=`, no key twice -/
structure Stores (tags : List Str) (ents : List (Str × Str)) : Prop where
  eq : tags = ents.map fun e => e.1 ++ '=' :: e.2
  noEq : ∀ e ∈ ents, '=' ∉ e.1
  nodup : (ents.map (·.1)).Nodup

def lookup (ents : List (Str × Str)) (k : Str) : Option Str :=
  match ents with
  | [] => none
  | e :: es => if k = e.1 then some e.2 else lookup es k

private theorem prefix_iff (k k' : Str) (hk : '=' ∉ k) (hk' : '=' ∉ k') (v : Str) :
    startsWith (k ++ '=' :: v) (k' ++ ['=']) = true ↔ k = k' := by
  unfold startsWith
  induction k generalizing k' with
  | nil =>
    cases k' with
    | nil => simp
    | cons c k' => simp at hk'; simp; intro h; exact absurd h.symm hk'.1
  | cons a k ih =>
    cases k' with
    | nil => simp at hk; simp; intro h; exact hk.1 h
    | cons c k' =>
      simp at hk hk'
      have := ih k' hk.2 hk'.2
      simp only [List.cons_append, List.isPrefixOf_cons_cons, Bool.and_eq_true, beq_iff_eq, this, List.cons.injEq]
      constructor
      · rintro ⟨rfl, rfl⟩; exact ⟨rfl, rfl⟩
      · rintro ⟨rfl, rfl⟩; exact ⟨rfl, rfl⟩

private theorem get_lookup (ents : List (Str × Str)) (hn : ∀ e ∈ ents, '=' ∉ e.1) (k : Str) (hk : '=' ∉ k) :
    getItem (ents.map fun e => e.1 ++ '=' :: e.2) k = match lookup ents k with | some v => .ok v | none => .throws := by
  induction ents with
  | nil => rfl
  | cons e es ih =>
    simp only [List.map_cons, getItem, lookup]
    have := prefix_iff e.1 k (hn e (by simp)) hk e.2
    by_cases h : e.1 = k
    · rw [if_pos (this.2 h), if_pos h.symm]; subst h; simp
    · rw [if_neg (fun x => h (this.1 x)), if_neg (fun x => h x.symm)]; exact ih fun e he => hn e (by simp [he])

private def upd (ents : List (Str × Str)) (k v : Str) : List (Str × Str) :=
  match ents with
  | [] => [(k, v)]
  | e :: es => if e.1 = k then (k, v) :: es else e :: upd es k v

private theorem put_upd (ents : List (Str × Str)) (hn : ∀ e ∈ ents, '=' ∉ e.1) (k v : Str) (hk : '=' ∉ k) :
    putItem (ents.map fun e => e.1 ++ '=' :: e.2) k v = (upd ents k v).map fun e => e.1 ++ '=' :: e.2 := by
  induction ents with
  | nil => rfl
  | cons e es ih =>
    simp only [List.map_cons, putItem, upd]
    have := prefix_iff e.1 k (hn e (by simp)) hk e.2
    by_cases h : e.1 = k
    · rw [if_pos (this.2 h), if_pos h]; rfl
    · rw [if_neg (fun x => h (this.1 x)), if_neg h, ih fun e he => hn e (by simp [he])]; rfl

private theorem upd_keys (ents : List (Str × Str)) (k v : Str) :
    (upd ents k v).map (·.1) = if k ∈ ents.map (·.1) then ents.map (·.1) else ents.map (·.1) ++ [k] := by
  induction ents with
  | nil => rfl
  | cons e es ih =>
    simp only [upd]
    by_cases h : e.1 = k
    · simp [h]
    · have h' : ¬ k = e.1 := fun x => h x.symm
      rw [if_neg h, List.map_cons, ih]
      by_cases h2 : k ∈ es.map (·.1)
      · rw [if_pos h2, if_pos (by rw [List.map_cons]; exact List.mem_cons_of_mem _ h2)]; rfl
      · rw [if_neg h2, if_neg (by rw [List.map_cons]; simp only [List.mem_cons, h', h2, or_self, not_false_eq_true])]; rfl

private theorem upd_lookup (ents : List (Str × Str)) (k v q : Str) :
    lookup (upd ents k v) q = if q = k then some v else lookup ents q := by
  induction ents with
  | nil =>
    simp only [upd, lookup]
  | cons e es ih =>
    simp only [upd, lookup]
    by_cases h : e.1 = k
    · rw [if_pos h]
      simp only [lookup]
      by_cases hq : q = k
      · simp [hq]
      · simp [hq, h]
    · rw [if_neg h]
      simp only [lookup, ih]
      by_cases hq : q = k
      · subst hq; simp [Ne.symm h]
      · simp [hq]

private theorem upd_stores (tags : List Str) (ents : List (Str × Str)) (h : Stores tags ents) (k v : Str) (hk : '=' ∉ k) :
    Stores (putItem tags k v) (upd ents k v) := by
  have hmem : ∀ x, x ∈ (upd ents k v).map (·.1) → x ∈ ents.map (·.1) ∨ x = k := by
    intro x hx
    rw [upd_keys] at hx
    split at hx
    · exact Or.inl hx
    · simpa using hx
  refine ⟨?_, ?_, ?_⟩
  · rw [h.eq, put_upd ents h.noEq k v hk]
  · intro e he
    rcases hmem e.1 (List.mem_map.2 ⟨e, he, rfl⟩) with h1 | h1
    · obtain ⟨e', he', e1⟩ := List.mem_map.1 h1
      rw [← e1]; exact h.noEq e' he'
    · rw [h1]; exact hk
  · rw [upd_keys]
    split
    · exact h.nodup
    · rw [List.nodup_append]
      refine ⟨h.nodup, by simp, ?_⟩
      intro a ha b hb e
      simp at hb
      rw [e, hb] at ha; contradiction

private theorem run_stores (ps : List Put) : ∀ (tags : List Str) (ents : List (Str × Str)) (d : Dict),
    Stores tags ents → (∀ k, '=' ∉ k → lookup ents k = d k) →
    ∃ ents', Stores (run tags ps) ents' ∧ (∀ k, '=' ∉ k → lookup ents' k = ps.foldl Dict.put d k) := by
  induction ps with
  | nil => intro tags ents d h1 h2; exact ⟨ents, h1, h2⟩
  | cons p ps ih =>
    intro tags ents d h1 h2
    by_cases hk : '=' ∈ p.key
    · have e1 : run tags (p :: ps) = run tags ps := by simp [run, setItem, hk]
      have e2 : (p :: ps).foldl Dict.put d = ps.foldl Dict.put d := by simp [Dict.put, hk]
      rw [e1, e2]; exact ih tags ents d h1 h2
    · have e1 : run tags (p :: ps) = run (putItem tags p.key p.item) ps := by simp [run, setItem, hk]
      rw [e1, List.foldl_cons]
      refine ih _ (upd ents p.key p.item) _ (upd_stores tags ents h1 p.key p.item hk) ?_
      intro k hk'
      rw [upd_lookup, Dict.put, if_neg hk, h2 k hk']

/-- the dictionary every new simulation starts with -/
def defaultDict (author isoTime id : Str) : Dict := fun k =>
  if k = "author".toList then some author else if k = "isoTime".toList then some isoTime
  else if k = "id".toList ∨ k = "d.id".toList ∨ k = "id.d".toList then some id else none

private theorem default_stores (author isoTime id : Str) :
    ∃ ents, Stores (defaultTags author isoTime id) ents ∧ ∀ k, lookup ents k = defaultDict author isoTime id k := by
  refine ⟨[("author".toList, author), ("isoTime".toList, isoTime), ("id".toList, id), ("d.id".toList, id),
    ("id.d".toList, id)], ⟨rfl, ?_, ?_⟩, ?_⟩
  · intro e he
    simp only [List.mem_cons, List.not_mem_nil, or_false] at he
    rcases he with rfl | rfl | rfl | rfl | rfl
    · exact (by decide +kernel : '=' ∉ "author".toList)
    · exact (by decide +kernel : '=' ∉ "isoTime".toList)
    · exact (by decide +kernel : '=' ∉ "id".toList)
    · exact (by decide +kernel : '=' ∉ "d.id".toList)
    · exact (by decide +kernel : '=' ∉ "id.d".toList)
  · exact (by decide +kernel : ["author".toList, "isoTime".toList, "id".toList, "d.id".toList, "id.d".toList].Nodup)
  · intro k
    simp only [lookup, defaultDict]
    generalize "author".toList = a1
    generalize "isoTime".toList = a2
    generalize "id".toList = a3
    generalize "d.id".toList = a4
    generalize "id.d".toList = a5
    by_cases h1 : k = a1
    · simp [h1]
    by_cases h2 : k = a2
    · simp [h1, h2]
    by_cases h3 : k = a3
    · simp [h1, h2, h3]
    by_cases h4 : k = a4
    · simp [h1, h2, h3, h4]
    simp [h1, h2, h3, h4]

/-- **C50 (partial: keys read contain no `=`)**: after any history of assignments, some of which may have
been rejected, reading a key gives what was assigned to it last (the initial value if it was never
assigned; `KeyError` if there is none), for arbitrary values. -/
theorem C50_get_partial (author isoTime id : Str) (ps : List Put) (k : Str) (hk : '=' ∉ k) :
    getItem (run (defaultTags author isoTime id) ps) k =
      match ps.foldl Dict.put (defaultDict author isoTime id) k with
      | some v => .ok v
      | none => .throws := by
  obtain ⟨ents, h1, h2⟩ := default_stores author isoTime id
  obtain ⟨ents', h3, h4⟩ := run_stores ps _ ents (defaultDict author isoTime id) h1 (fun k _ => h2 k)
  rw [h3.eq, get_lookup ents' h3.noEq k hk, ← h4 k hk]

example : getItem (run (defaultTags "me".toList "t".toList "i".toList)
    [⟨"a".toList, "b=c".toList⟩, ⟨"ab".toList, []⟩, ⟨"a".toList, "=".toList⟩]) "a".toList = .ok "=".toList := by decide

private theorem keys_map (ents : List (Str × Str)) (hn : ∀ e ∈ ents, '=' ∉ e.1) :
    keys (ents.map fun e => e.1 ++ '=' :: e.2) = .ok (ents.map (·.1)) := by
  induction ents with
  | nil => rfl
  | cons e es ih =>
    have htw : ∀ (k v : Str), '=' ∉ k → (k ++ '=' :: v).takeWhile (· != '=') = k := by
      intro k v hk
      induction k with
      | nil => simp
      | cons c k ihk => simp at hk; simp [ihk hk.2, Ne.symm hk.1]
    simp only [List.map_cons, keys]
    rw [if_pos (by simp), ih fun e he => hn e (by simp [he])]
    simp only [htw e.1 e.2 (hn e (by simp))]

private theorem lookup_isSome (ents : List (Str × Str)) (k : Str) : (lookup ents k).isSome ↔ k ∈ ents.map (·.1) := by
  induction ents with
  | nil => simp [lookup]
  | cons e es ih =>
    simp only [lookup]
    by_cases h : e.1 = k
    · simp [h]
    · rw [if_neg (fun x => h x.symm), ih]; simp [Ne.symm h]

/-- **C50 (keys)**: `O.tags.keys()` never raises; it lists exactly the keys that have a value, each once,
and none of them contains `=`. -/
theorem C50_keys (author isoTime id : Str) (ps : List Put) :
    ∃ ks, keys (run (defaultTags author isoTime id) ps) = .ok ks ∧ ks.Nodup ∧ (∀ k ∈ ks, '=' ∉ k) ∧
      ∀ k, '=' ∉ k → (k ∈ ks ↔ (ps.foldl Dict.put (defaultDict author isoTime id) k).isSome) := by
  obtain ⟨ents, h1, h2⟩ := default_stores author isoTime id
  obtain ⟨ents', h3, h4⟩ := run_stores ps _ ents (defaultDict author isoTime id) h1 (fun k _ => h2 k)
  refine ⟨ents'.map (·.1), ?_, h3.nodup, ?_, ?_⟩
  · rw [h3.eq, keys_map ents' h3.noEq]
  · intro k hk; obtain ⟨e, he, rfl⟩ := List.mem_map.1 hk; exact h3.noEq e he
  · intro k hk; rw [← h4 k hk, lookup_isSome]

/-- **C50 (membership)**: `key in O.tags` is true exactly when reading it works. -/
theorem C50_has (tags : List Str) (k : Str) : hasKey tags k = true ↔ ∃ v, getItem tags k = .ok v := by
  unfold hasKey
  induction tags with
  | nil => simp [getItem]
  | cons t ts ih =>
    simp only [List.any_cons, Bool.or_eq_true, getItem]
    by_cases h : startsWith t (k ++ ['=']) = true
    · simp [h]
    · rw [if_neg h, ← ih]; simp [h]

/-- **C50 (independence)**: an assignment changes nothing about other keys and rejected assignments change
nothing at all. -/
theorem C50_independent (author isoTime id : Str) (ps : List Put) (p : Put) (k : Str) (hk : '=' ∉ k) (hne : k ≠ p.key) :
    getItem (run (defaultTags author isoTime id) (ps ++ [p])) k = getItem (run (defaultTags author isoTime id) ps) k := by
  rw [C50_get_partial _ _ _ _ _ hk, C50_get_partial _ _ _ _ _ hk]
  have e : (ps ++ [p]).foldl Dict.put (defaultDict author isoTime id) k = ps.foldl Dict.put (defaultDict author isoTime id) k := by
    simp only [List.foldl_append, List.foldl_cons, List.foldl_nil, Dict.put]
    split
    · rfl
    · simp [hne]
  rw [e]

example : "a".toList ≠ (Put.mk "ab".toList "1".toList).key ∧ '=' ∉ "a".toList := by decide

/-- **C50 violated**: reading a key that contains `=` is not rejected, and finds a value that was never
assigned to it: after `O.tags['a']='b=c'`, `O.tags['a=b']` is `'c'` although `'a=b'` is not in
`O.tags.keys()` and assigning to it raises `KeyError`. -/
theorem C50_violated_key_with_eq : ∃ (ps : List Put) (k v : Str),
    (∀ p ∈ ps, p.key ≠ k) ∧ getItem (run (defaultTags [] [] []) ps) k = .ok v ∧
    hasKey (run (defaultTags [] [] []) ps) k = true ∧
    (∀ ks, keys (run (defaultTags [] [] []) ps) = .ok ks → k ∉ ks) ∧
    setItem (run (defaultTags [] [] []) ps) k v = .throws := by
  refine ⟨[⟨"a".toList, "b=c".toList⟩], "a=b".toList, "c".toList, by decide, by decide, by decide, ?_, by decide⟩
  intro ks h
  have : keys (run (defaultTags [] [] []) [⟨"a".toList, "b=c".toList⟩]) =
    .ok ["author".toList, "isoTime".toList, "id".toList, "d.id".toList, "id.d".toList, "a".toList] := by decide
  rw [this] at h; injection h with h; subst h; decide

/-! ## C70: materials -/

/-- a material knows where it is: the material found under its own number is itself -/
def Knows (s : Mats) : Prop := ∀ m ∈ s.vec, matGet s (s.obj m).id = .ok m

/-- histories of a material container that starts empty -/
inductive MReach : Mats → Prop where
  | init (obj : Nat → Mat) : MReach ⟨obj, []⟩
  | append {s : Mats} (m : Nat) : MReach s → MReach (matAppend s m).1
  | relabel {s : Mats} (m : Nat) (l : Str) : MReach s →
      MReach { s with obj := fun r => if r = m then { s.obj m with label := l } else s.obj r }

private theorem matGet_nat (s : Mats) (i m : Nat) : matGet s i = .ok m ↔ s.vec[i]? = some m := by
  unfold matGet matById
  simp only [ge_iff_le, Int.natCast_nonneg, if_true]
  by_cases h : i < s.vec.length
  · rw [if_neg (by omega), if_neg (by omega)]
    simp only [Int.toNat_natCast, List.getElem?_eq_getElem h]
    simp
  · rw [if_pos (by omega), List.getElem?_eq_none (by omega)]; simp

private theorem reach_inv {s : Mats} (h : MReach s) : ∀ m ∈ s.vec, ∃ i : Nat, (s.obj m).id = i ∧ s.vec[i]? = some m := by
  induction h with
  | init obj => intro m hm; cases hm
  | @append s m hs ih =>
    intro x hx
    simp only [matAppend, List.mem_append, List.mem_singleton] at hx ⊢
    by_cases e : x = m
    · subst e
      exact ⟨s.vec.length, by simp, by simp⟩
    · rcases hx with hx | hx
      · obtain ⟨i, h1, h2⟩ := ih x hx
        exact ⟨i, by simp [e, h1], by rw [List.getElem?_append_left (List.getElem?_eq_some_iff.1 h2).1]; exact h2⟩
      · exact absurd hx e
  | @relabel s m l hs ih =>
    intro x hx
    obtain ⟨i, h1, h2⟩ := ih x hx
    refine ⟨i, ?_, h2⟩
    by_cases e : x = m
    · subst e; simp [h1]
    · simp [e, h1]

/-- **C70 (1)**: `O.materials[m.id]` is `m` for every material in the container, whatever was appended,
also when the same material was appended several times. -/
theorem C70_own_number {s : Mats} (h : MReach s) : Knows s := by
  intro m hm
  obtain ⟨i, h1, h2⟩ := reach_inv h m hm
  rw [h1]; exact (matGet_nat s i m).2 h2

example : MReach (matAppend (matAppend ⟨fun _ => ⟨-1, []⟩, []⟩ 7).1 7).1 := .append _ (.append _ (.init _))

/-- **C70 (2)**: `append` returns the number under which the material is found, and the materials that
were there keep their numbers. -/
theorem C70_append (s : Mats) (m : Nat) :
    matGet (matAppend s m).1 (matAppend s m).2 = .ok m ∧ (matAppend s m).2 = s.vec.length ∧
    ((matAppend s m).1.obj m).id = (matAppend s m).2 ∧
    ∀ i : Nat, i < s.vec.length → matGet (matAppend s m).1 i = matGet s i := by
  have e : (matAppend s m).2 = (s.vec.length : Int) := by simp [matAppend]
  refine ⟨?_, e, by simp [matAppend], ?_⟩
  · rw [e, matGet_nat]; simp [matAppend]
  · intro i hi
    rw [(matGet_nat s i s.vec[i]).2 (by simp [hi]), matGet_nat]
    simp [matAppend, List.getElem?_append_left hi]

/-- **C70 (3)**: appending a list is appending one after the other: the numbers returned are consecutive
and each finds its material. -/
theorem C70_append_list (s : Mats) (ms : List Nat) :
    (matAppendList s ms).1.vec = s.vec ++ ms ∧
    (matAppendList s ms).2 = (List.range ms.length).map (fun i => ((s.vec.length + i : Nat) : Int)) ∧
    ∀ (j : Nat) (hj : j < ms.length), matGet (matAppendList s ms).1 ((s.vec.length + j : Nat) : Int) = .ok ms[j] := by
  have h1 : ∀ (ms : List Nat) (s : Mats), (matAppendList s ms).1.vec = s.vec ++ ms := by
    intro ms
    induction ms with
    | nil => intro s; simp [matAppendList]
    | cons m ms ih => intro s; simp only [matAppendList]; rw [ih]; simp [matAppend]
  refine ⟨h1 ms s, ?_, ?_⟩
  · induction ms generalizing s with
    | nil => rfl
    | cons m ms ih =>
      simp only [matAppendList, ih, List.length_cons, List.range_succ_eq_map, List.map_cons, List.map_map]
      refine congr (congrArg _ ?_) ?_
      · simp [matAppend]
      · apply List.map_congr_left
        intro a _
        simp [matAppend]; omega
  · intro j hj
    rw [matGet_nat, h1, List.getElem?_append_right (by omega)]
    simp [hj]

example : (matAppendList ⟨fun _ => ⟨-1, []⟩, [4]⟩ [5, 6]).2 = [1, 2] := rfl

/-- **C70 (4)**: indexing follows Python: `-1` is the last one, and indices outside raise `IndexError`
(never undefined behaviour). -/
theorem C70_index (s : Mats) (i : Int) :
    (0 ≤ i → i < s.vec.length → ∃ m, s.vec[i.toNat]? = some m ∧ matGet s i = .ok m) ∧
    (i < 0 → -(s.vec.length : Int) ≤ i → ∃ m, s.vec[(s.vec.length + i).toNat]? = some m ∧ matGet s i = .ok m) ∧
    (i ≥ s.vec.length ∨ i < -(s.vec.length : Int) → matGet s i = .throws) := by
  refine ⟨?_, ?_, ?_⟩
  · intro h1 h2
    obtain ⟨n, rfl⟩ := Int.eq_ofNat_of_zero_le h1
    have hn : n < s.vec.length := by omega
    exact ⟨s.vec[n], by simp [hn], (matGet_nat s n _).2 (by simp [hn])⟩
  · intro h1 h2
    have hn : ((s.vec.length : Int) + i).toNat < s.vec.length := by omega
    refine ⟨s.vec[((s.vec.length : Int) + i).toNat], by simp [hn], ?_⟩
    unfold matGet matById
    simp only [ge_iff_le, show ¬ (0 ≤ i) by omega, if_false]
    rw [if_neg (by omega), if_neg (by omega)]
    simp [hn]
  · intro h
    unfold matGet
    by_cases h0 : 0 ≤ i
    · simp only [ge_iff_le, h0, if_true]; rw [if_pos (by omega)]
    · simp only [ge_iff_le, h0, if_false]; rw [if_pos (by omega)]

example : matGet ⟨fun _ => ⟨-1, []⟩, [4, 5, 6]⟩ (-3) = .ok 4 := by decide

/-- **C70 (5)**: looking up by label and by the index of that label agree, and give the first material
with the label. -/
theorem C70_label (s : Mats) (l : Str) :
    (∀ m, matByLabel s l = .ok m ↔ ∃ i : Nat, matIndex s l = .ok i ∧ matGet s i = .ok m) ∧
    (∀ i, matIndex s l = .ok i ↔ (∃ m, s.vec[i]? = some m ∧ (s.obj m).label = l) ∧
      ∀ j < i, ∀ m, s.vec[j]? = some m → (s.obj m).label ≠ l) ∧
    (matIndex s l = .throws ↔ ∀ m ∈ s.vec, (s.obj m).label ≠ l) := by
  have gen : ∀ (v : List Nat) (k i : Nat), byLabelIndex s l k v = .ok i ↔ ∃ i', i = k + i' ∧
      (∃ m, v[i']? = some m ∧ (s.obj m).label = l) ∧ ∀ j < i', ∀ m, v[j]? = some m → (s.obj m).label ≠ l := by
    intro v
    induction v with
    | nil => intro k i; simp [byLabelIndex]
    | cons a v ih =>
      intro k i
      simp only [byLabelIndex]
      by_cases h : (s.obj a).label = l
      · rw [if_pos h]
        constructor
        · intro e; injection e with e
          exact ⟨0, by omega, ⟨a, by simp, h⟩, by intro j hj; omega⟩
        · rintro ⟨i', e, _, h3⟩
          cases i' with
          | zero => simp [e]
          | succ i' => exact absurd h (h3 0 (by omega) a (by simp))
      · rw [if_neg h, ih]
        constructor
        · rintro ⟨i', e, ⟨m, hm, hl⟩, h3⟩
          refine ⟨i' + 1, by omega, ⟨m, by simpa using hm, hl⟩, ?_⟩
          intro j hj m' hm'
          cases j with
          | zero => simp at hm'; subst hm'; exact h
          | succ j => exact h3 j (by omega) m' (by simpa using hm')
        · rintro ⟨i', e, ⟨m, hm, hl⟩, h3⟩
          cases i' with
          | zero => simp at hm; subst hm; exact absurd hl h
          | succ i' => exact ⟨i', by omega, ⟨m, by simpa using hm, hl⟩, fun j hj m' hm' => h3 (j+1) (by omega) m' (by simpa using hm')⟩
  have thr : ∀ (v : List Nat) (k : Nat), byLabelIndex s l k v = .throws ↔ ∀ m ∈ v, (s.obj m).label ≠ l := by
    intro v
    induction v with
    | nil => intro k; simp [byLabelIndex]
    | cons a v ih =>
      intro k
      simp only [byLabelIndex]
      by_cases h : (s.obj a).label = l
      · rw [if_pos h]; simp [h]
      · rw [if_neg h, ih]; simp [h]
  have both : ∀ (v : List Nat) (k m : Nat), byLabel s l v = .ok m ↔ ∃ i', byLabelIndex s l k v = .ok (k + i') ∧ v[i']? = some m := by
    intro v
    induction v with
    | nil => intro k m; simp [byLabel, byLabelIndex]
    | cons a v ih =>
      intro k m
      simp only [byLabel, byLabelIndex]
      by_cases h : (s.obj a).label = l
      · rw [if_pos h, if_pos h]
        constructor
        · intro e; injection e with e; exact ⟨0, rfl, by simp [e]⟩
        · rintro ⟨i', e, hm⟩; injection e with e
          have : i' = 0 := by omega
          subst this; simp at hm; simp [hm]
      · rw [if_neg h, if_neg h, ih (k+1)]
        constructor
        · rintro ⟨i', e, hm⟩; exact ⟨i' + 1, by rw [e]; congr 1; omega, by simpa using hm⟩
        · rintro ⟨i', e, hm⟩
          cases i' with
          | zero =>
            obtain ⟨i'', e2, _⟩ := (gen v (k+1) _).1 e
            omega
          | succ i' => exact ⟨i', by rw [e]; congr 1; omega, by simpa using hm⟩
  refine ⟨?_, ?_, thr s.vec 0⟩
  · intro m
    rw [matByLabel, both s.vec 0]
    constructor
    · rintro ⟨i, h1, h2⟩; exact ⟨i, by rw [matIndex, h1]; simp, (matGet_nat s i m).2 h2⟩
    · rintro ⟨i, h1, h2⟩; exact ⟨i, by rw [Nat.zero_add]; exact h1, (matGet_nat s i m).1 h2⟩
  · intro i
    rw [matIndex, gen]
    simp

example : matIndex ⟨fun r => ⟨0, if r = 5 then ['a'] else []⟩, [4, 5, 5]⟩ ['a'] = .ok 1 := by decide

/-- histories in which no material is appended that is already there -/
inductive MFresh : Mats → Prop where
  | init (obj : Nat → Mat) : MFresh ⟨obj, []⟩
  | append {s : Mats} (m : Nat) : m ∉ s.vec → MFresh s → MFresh (matAppend s m).1
  | relabel {s : Mats} (m : Nat) (l : Str) : MFresh s →
      MFresh { s with obj := fun r => if r = m then { s.obj m with label := l } else s.obj r }

/-- **C71 (partial: no material is appended twice)**: the material found at place `i` has number `i`. -/
theorem C71_place_is_number_partial {s : Mats} (h : MFresh s) (i m : Nat) (hm : matGet s i = .ok m) : (s.obj m).id = i := by
  rw [matGet_nat] at hm
  induction h generalizing i m with
  | init obj => simp at hm
  | @append s x hx hs ih =>
    simp only [matAppend] at hm ⊢
    by_cases hi : i < s.vec.length
    · rw [List.getElem?_append_left hi] at hm
      have hne : m ≠ x := fun e => hx (e ▸ List.mem_of_getElem? hm)
      rw [if_neg hne]; exact ih i m hm
    · rw [List.getElem?_append_right (by omega)] at hm
      have : i - s.vec.length = 0 := by
        have := (List.getElem?_eq_some_iff.1 hm).1
        simp at this; omega
      rw [this] at hm
      simp at hm
      rw [if_pos hm.symm]; simp; omega
  | @relabel s x l hs ih =>
    have := ih i m hm
    by_cases e : m = x
    · subst e; simpa using this
    · simpa [e] using this

example : MFresh (matAppend (matAppend ⟨fun _ => ⟨-1, []⟩, []⟩ 7).1 8).1 := .append _ (by decide) (.append _ (by decide) (.init _))

/-- **C71 violated**: a material appended twice carries the number of the second place only, so the
material found in the first place does not have that number (the assertion of `Material::byId`,
core/Material.cpp:8, fails in a debug build). -/
theorem C71_violated_twice : ∃ s : Mats, MReach s ∧ ∃ (i : Nat) (m : Nat), matGet s i = .ok m ∧ (s.obj m).id ≠ i :=
  ⟨(matAppend (matAppend ⟨fun _ => ⟨-1, []⟩, []⟩ 7).1 7).1, .append _ (.append _ (.init _)), 0, 7, by decide, by decide⟩

end Verif.Attr
