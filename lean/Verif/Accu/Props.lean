import Batteries.Data.List.Perm
import Mathlib.Algebra.Group.Int.Defs
import Mathlib.Data.List.Nodup
import Mathlib.Data.List.GetD
import Verif.Accu.Lemmas
/-!
# C53, C54, C74: accumulators, energies by name, threaded vectors
-/
namespace Verif.Accu
open Verif

variable {T : Type}

/-! ## C53: scalar accumulator -/

/-- what a program does with an accumulator -/
inductive AOp (T : Type) where
  | add (th : Nat) (v : T)
  | sub (th : Nat) (v : T)
  | set (v : T)
  | reset

/-- run of the model -/
def accRun [Zero T] [Add T] [Sub T] : Acc T → List (AOp T) → Res (Acc T)
  | a, [] => .ok a
  | a, .add th v :: ops => (a.add th v).bind fun a => accRun a ops
  | a, .sub th v :: ops => (a.sub th v).bind fun a => accRun a ops
  | a, .set v :: ops => accRun (a.set v) ops
  | a, .reset :: ops => accRun a.reset ops

/-- specification: one number -/
def accSpec [Zero T] [Add T] [Sub T] (x : T) : AOp T → T
  | .add _ v => x + v
  | .sub _ v => x - v
  | .set v => v
  | .reset => 0

/-- the thread that does the operation exists -/
def AOp.valid (n : Nat) : AOp T → Prop
  | .add th _ => th < n
  | .sub th _ => th < n
  | _ => True

private theorem foldl_sum [AddCommMonoid T] (l : List T) (x : T) : l.foldl (· + ·) x = x + l.sum := by
  induction l generalizing x with
  | nil => simp
  | cons a l ih => rw [List.foldl_cons, ih, List.sum_cons, add_assoc]

private theorem sum_set [AddCommGroup T] (l : List T) (i : Nat) (h : i < l.length) (d : T) : (l.set i (l[i] + d)).sum = l.sum + d := by
  induction l generalizing i with
  | nil => simp at h
  | cons a l ih =>
    cases i with
    | zero => simp only [List.set_cons_zero, List.getElem_cons_zero, List.sum_cons]; rw [add_right_comm]
    | succ i => simp only [List.set_cons_succ, List.getElem_cons_succ, List.sum_cons, ih i (by simpa using h)]; rw [add_assoc]

private theorem sum_map_zero [AddCommMonoid T] {α : Type} (l : List α) : (l.map fun _ => (0 : T)).sum = 0 := by
  induction l with
  | nil => rfl
  | cons a l ih => simp

/-- **C53 (1)**: the value of a scalar accumulator is the sum of what was added and subtracted since it was
last set or reset, for every number of threads and every distribution of the operations over them. -/
theorem C53_scalar [AddCommGroup T] (n : Nat) (hn : 0 < n) (ops : List (AOp T)) (h : ∀ o ∈ ops, o.valid n) :
    ∃ a, accRun (Acc.new n) ops = .ok a ∧ a.get = ops.foldl accSpec 0 := by
  have gen : ∀ (ops : List (AOp T)) (a : Acc T) (x : T), a.vals.length = n → a.get = x → (∀ o ∈ ops, o.valid n) →
      ∃ a', accRun a ops = .ok a' ∧ a'.get = ops.foldl accSpec x := by
    intro ops
    induction ops with
    | nil => intro a x _ hx _; exact ⟨a, rfl, hx⟩
    | cons o ops ih =>
      intro a x hl hx hv
      have hv' : ∀ o ∈ ops, o.valid n := fun o ho => hv o (by simp [ho])
      have hg : ∀ b : Acc T, b.get = b.vals.sum := fun b => by rw [Acc.get, foldl_sum, zero_add]
      cases o with
      | add th v =>
        have hth : th < a.vals.length := by rw [hl]; exact hv (.add th v) (by simp)
        have e : a.add th v = .ok ⟨a.vals.set th (a.vals[th] + v)⟩ := by simp [Acc.add, hth]
        simp only [accRun, e, Res.bind_ok, List.foldl_cons]
        refine ih ⟨a.vals.set th (a.vals[th] + v)⟩ _ (by simpa using hl) ?_ hv'
        rw [hg]
        show (a.vals.set th (a.vals[th] + v)).sum = x + v
        rw [sum_set _ _ hth, ← hg, hx]
      | sub th v =>
        have hth : th < a.vals.length := by rw [hl]; exact hv (.sub th v) (by simp)
        have e : a.sub th v = .ok ⟨a.vals.set th (a.vals[th] + -v)⟩ := by simp [Acc.sub, hth, sub_eq_add_neg]
        simp only [accRun, e, Res.bind_ok, List.foldl_cons]
        refine ih ⟨a.vals.set th (a.vals[th] + -v)⟩ _ (by simpa using hl) ?_ hv'
        rw [hg]
        show (a.vals.set th (a.vals[th] + -v)).sum = x - v
        rw [sum_set _ _ hth, ← hg, hx, sub_eq_add_neg]
      | set v =>
        simp only [accRun, List.foldl_cons]
        refine ih (a.set v) _ (by simpa [Acc.set, Acc.reset] using hl) ?_ hv'
        rw [hg]
        cases hvs : a.vals with
        | nil => rw [hvs] at hl; simp at hl; omega
        | cons y ys => simp [Acc.set, Acc.reset, hvs, accSpec]
      | reset =>
        simp only [accRun, List.foldl_cons]
        refine ih a.reset _ (by simpa [Acc.reset] using hl) ?_ hv'
        rw [hg]
        simp [Acc.reset, accSpec]
  refine gen ops (Acc.new n) 0 (by simp [Acc.new]) ?_ h
  rw [Acc.get, foldl_sum]; simp [Acc.new]

example : ∃ a, accRun (Acc.new 2) [.add 1 5, .set 3, .add 0 4, .sub 1 (2 : Int)] = .ok a ∧ a.get = 5 :=
  C53_scalar 2 (by omega) _ (by intro o ho; simp at ho; rcases ho with rfl | rfl | rfl | rfl <;> simp [AOp.valid])

/-- **C53 (2)**: the slots of the threads lie inside the allocated memory, do not overlap, and no two
threads share a cache line. -/
theorem C53_slots (cls size n i j : Nat) (hc : 0 < cls) (hi : i < n) (hij : i < j) :
    i * eSize cls size + size ≤ n * eSize cls size ∧ i * eSize cls size + size ≤ j * eSize cls size ∧
    (j * eSize cls size) % cls = 0 := by
  have hs : size ≤ eSize cls size := by
    have := nCLforN_room cls size hc
    unfold nCLforN at this
    unfold eSize; rw [Nat.mul_comm]; exact this
  have key : ∀ k, i < k → i * eSize cls size + size ≤ k * eSize cls size := by
    intro k hk
    have : (i + 1) * eSize cls size ≤ k * eSize cls size := Nat.mul_le_mul_right _ hk
    rw [Nat.add_mul, Nat.one_mul] at this; omega
  refine ⟨key n hi, key j hij, ?_⟩
  unfold eSize
  rw [Nat.mul_left_comm]; exact Nat.mul_mod_right _ _

example : eSize 64 24 = 64 ∧ eSize 64 72 = 128 := by decide

/-! ## C53: array accumulator -/

/-- what a program does with an array accumulator -/
inductive BOp (T : Type) where
  | resize (n : Nat)
  | add (th i : Nat) (v : T)
  | set (i : Nat) (v : T)
  | reset (i : Nat)

/-- run of the model -/
def arrRun [Zero T] [Add T] : Arr T → List (BOp T) → Res (Arr T)
  | a, [] => .ok a
  | a, .resize n :: ops => (a.resize n).bind fun a => arrRun a ops
  | a, .add th i v :: ops => (a.add th i v).bind fun a => arrRun a ops
  | a, .set i v :: ops => (a.set i v).bind fun a => arrRun a ops
  | a, .reset i :: ops => (a.reset i).bind fun a => arrRun a ops

/-- specification: a list of numbers -/
def arrSpec [Zero T] [Add T] (l : List T) : BOp T → List T
  | .resize n => l.take n ++ List.replicate (n - l.length) 0
  | .add _ i v => l.modify i (· + v)
  | .set i v => l.set i v
  | .reset i => l.set i 0

/-- the operation refers to existing elements and threads -/
def BOp.valid (n : Nat) (l : List T) : BOp T → Prop
  | .resize _ => True
  | .add th i _ => th < n ∧ i < l.length
  | .set i _ => i < l.length
  | .reset i => i < l.length

/-- all operations of the history do -/
def Valid [Zero T] [Add T] (n : Nat) : List T → List (BOp T) → Prop
  | _, [] => True
  | l, o :: ops => o.valid n l ∧ Valid n (arrSpec l o) ops

/-- no resize goes beyond `m` elements -/
def Within (m : Nat) (ops : List (BOp T)) : Prop := ∀ k, BOp.resize k ∈ ops → k ≤ m

/-- the accumulator holds the numbers `l` -/
private def Holds [Zero T] [Add T] (n : Nat) (a : Arr T) (l : List T) : Prop :=
  ∃ xs, Rep a xs ∧ xs.length = n ∧ a.sz = l.length ∧ ∀ i (h : i < l.length), val xs i = l[i]

private theorem run_holds [AddCommMonoid T] (n : Nat) (hn : 0 < n) (ops : List (BOp T)) : ∀ (a : Arr T) (l : List T),
    Holds n a l → Valid n l ops → (n = 1 ∨ (0 < a.nCL ∧ Within (a.nCL * a.perCL) ops)) →
    ∃ a', arrRun a ops = .ok a' ∧ Holds n a' (ops.foldl arrSpec l) := by
  induction ops with
  | nil => intro a l h _ _; exact ⟨a, rfl, h⟩
  | cons o ops ih =>
    rintro a l ⟨xs, hr, hx, hs, hv⟩ hval hg
    have hxs : xs ≠ [] := by intro e; rw [e] at hx; simp at hx; omega
    have hg' : ∀ a' : Arr T, a.nCL ≤ a'.nCL → a'.perCL = a.perCL → n = 1 ∨ (0 < a'.nCL ∧ Within (a'.nCL * a'.perCL) ops) := by
      intro a' h1 h2
      rcases hg with hg | hg
      · exact Or.inl hg
      · refine Or.inr ⟨by omega, fun k hk => Nat.le_trans (hg.2 k (by simp [hk])) ?_⟩
        rw [h2]; exact Nat.mul_le_mul_right _ h1
    cases o with
    | resize m =>
      obtain ⟨a', xs', h1, h2, h3, h4, h5, h6, h7⟩ := resize_ok hr m (by
        rcases hg with hg | hg
        · left; omega
        · right; right; exact hg.2 m (by simp))
      simp only [arrRun, h1, Res.bind_ok, List.foldl_cons]
      refine ih a' _ ⟨xs', h2, by omega, by simp [arrSpec, h4]; omega, ?_⟩ hval.2 (hg' a' (by omega) h6)
      intro i hi
      have hi' : i < m := by simp [arrSpec] at hi; omega
      rw [h7 i hi']
      simp only [arrSpec]
      by_cases hl : i < l.length
      · rw [if_pos (by omega), hv i hl, List.getElem_append_left (by simp; omega)]; simp
      · rw [if_neg (by omega), List.getElem_append_right (by simp; omega)]; simp
    | add th i v =>
      obtain ⟨hth, hi⟩ := hval.1
      obtain ⟨a', xs', h1, h2, h3, h4, h5, h6, h7⟩ := add_ok hr (by omega : th < xs.length) (by omega : i < a.sz) v
      simp only [arrRun, h1, Res.bind_ok, List.foldl_cons]
      refine ih a' _ ⟨xs', h2, by omega, by simp [arrSpec, h4]; omega, ?_⟩ hval.2 (hg' a' (by omega) h6)
      intro j hj
      have hj' : j < l.length := by simpa [arrSpec] using hj
      rw [h7 j]
      simp only [arrSpec, List.getElem_modify]
      by_cases e : j = i
      · subst e; simp [hv j hj']
      · simp [e, Ne.symm e, hv j hj']
    | set i v =>
      have hi : i < l.length := hval.1
      obtain ⟨a', xs', h1, h2, h3, h4, h5, h6, h7⟩ := set_ok hr hxs (by omega : i < a.sz) v
      simp only [arrRun, h1, Res.bind_ok, List.foldl_cons]
      refine ih a' _ ⟨xs', h2, by omega, by simp [arrSpec, h4]; omega, ?_⟩ hval.2 (hg' a' (by omega) h6)
      intro j hj
      have hj' : j < l.length := by simpa [arrSpec] using hj
      rw [h7 j]
      simp only [arrSpec, List.getElem_set]
      by_cases e : j = i
      · subst e; simp
      · simp [e, Ne.symm e, hv j hj']
    | reset i =>
      have hi : i < l.length := hval.1
      obtain ⟨a', xs', h1, h2, h3, h4, h5, h6, h7⟩ := set_ok hr hxs (by omega : i < a.sz) 0
      simp only [arrRun, Arr.reset, h1, Res.bind_ok, List.foldl_cons]
      refine ih a' _ ⟨xs', h2, by omega, by simp [arrSpec, h4]; omega, ?_⟩ hval.2 (hg' a' (by omega) h6)
      intro j hj
      have hj' : j < l.length := by simpa [arrSpec] using hj
      rw [h7 j]
      simp only [arrSpec, List.getElem_set]
      by_cases e : j = i
      · subst e; simp
      · simp [e, Ne.symm e, hv j hj']

private theorem holds_get [AddCommMonoid T] {n : Nat} {a : Arr T} {l : List T} (h : Holds n a l) (i : Nat) (hi : i < l.length) :
    a.get i = .ok l[i] := by
  obtain ⟨xs, hr, hx, hs, hv⟩ := h
  rw [get_ok hr (by omega), hv i hi]

private theorem holds_new [AddCommMonoid T] (p n : Nat) (hp : 0 < p) : Holds n (Arr.new p n : Arr T) [] :=
  ⟨_, new_rep p n hp, by simp, rfl, by intro i h; simp at h⟩

/-- **C53 (3) (partial: one thread, or the array never outgrows the cache lines it allocated first)**: no
operation touches memory it does not own, every element reads as what was added since it was last set,
reset or created, and changing the size keeps the values of the remaining elements. -/
theorem C53_array_partial [AddCommMonoid T] (n p : Nat) (hn : 0 < n) (hp : 0 < p) (n0 : Nat) (h0 : 0 < n0) (ops : List (BOp T))
    (hv : Valid n [] (.resize n0 :: ops)) (hg : n = 1 ∨ Within (nCLforN p n0 * p) ops) :
    ∃ a, arrRun (Arr.new p n) (.resize n0 :: ops) = .ok a ∧ a.sz = ((BOp.resize n0 :: ops).foldl arrSpec ([] : List T)).length ∧
      ∀ i (h : i < ((BOp.resize n0 :: ops).foldl arrSpec ([] : List T)).length), a.get i = .ok ((BOp.resize n0 :: ops).foldl arrSpec [])[i] := by
  obtain ⟨xs, hr, hx, hs, hval⟩ := holds_new (T := T) p n hp
  obtain ⟨a', xs', h1, h2, h3, h4, h5, h6, h7⟩ := resize_ok hr n0 (Or.inr (Or.inl rfl))
  have hh : Holds n a' (arrSpec [] (.resize n0)) := by
    refine ⟨xs', h2, by omega, by simp [arrSpec, h4], ?_⟩
    intro i hi
    have hi' : i < n0 := by simp [arrSpec] at hi; omega
    rw [h7 i hi', if_neg (by show ¬ i < 0; omega)]
    simp [arrSpec]
  have hc : a'.nCL = nCLforN p n0 := by rw [h5]; show max 0 _ = _; simp [Arr.new]
  have hpp : a'.perCL = p := h6
  obtain ⟨a, h8, h9⟩ := run_holds n hn ops a' _ hh hv.2 (by
    rcases hg with hg | hg
    · exact Or.inl hg
    · right; rw [hc, hpp]; exact ⟨nCLforN_pos p n0 hp h0, hg⟩)
  refine ⟨a, by simp only [arrRun, h1, Res.bind_ok, h8], ?_, ?_⟩
  · obtain ⟨_, _, _, h, _⟩ := h9; exact h
  · intro i hi; exact holds_get h9 i hi

example : Valid 2 [] (BOp.resize 3 :: [.add 0 2 5, .add 1 2 (4 : Int), .resize 7, .add 1 6 1]) ∧
    Within (nCLforN 8 3 * 8) [BOp.add 0 2 5, .add 1 2 (4 : Int), .resize 7, .add 1 6 1] ∧
    (BOp.resize 3 :: [.add 0 2 5, .add 1 2 (4 : Int), .resize 7, .add 1 6 1]).foldl arrSpec [] = [0, 0, 9, 0, 0, 0, 1] := by
  refine ⟨?_, ?_, by decide⟩
  · simp [Valid, BOp.valid, arrSpec]
  · intro k hk; simp at hk; subst hk; decide

/-- **C53 violated (over-read)**: with two threads or more, growing an array accumulator beyond the cache
lines it has copies, for every thread but the first, more bytes than its old memory has: `nCL` is already
the new count (line 38 is inside the loop).  With 8 values per line this happens at the ninth energy name. -/
theorem C53_violated_growth [AddCommMonoid T] (n p n0 m : Nat) (hn : 2 ≤ n) (hp : 0 < p) (h0 : 0 < n0) (hm : m > nCLforN p n0 * p) :
    arrRun (Arr.new p n : Arr T) [.resize n0, .resize m] = .ub := by
  obtain ⟨xs, hr, hx, hs, hval⟩ := holds_new (T := T) p n hp
  obtain ⟨a', xs', h1, h2, h3, h4, h5, h6, h7⟩ := resize_ok hr n0 (Or.inr (Or.inl rfl))
  have hc : a'.nCL = nCLforN p n0 := by rw [h5]; simp [Arr.new]
  have hpp : a'.perCL = p := h6
  have := resize_ub h2 m (by omega) (by rw [hc]; exact nCLforN_pos p n0 hp h0) (by rw [hc, hpp]; exact hm)
  simp only [arrRun, h1, Res.bind_ok, this, Res.bind_ub]

example : arrRun (Arr.new 8 2 : Arr Int) [.resize 1, .resize 9] = .ub := C53_violated_growth 2 8 1 9 (by omega) (by omega) (by omega) (by decide)

/-! ## C74: threaded vector -/

/-- run of pushes `(thread, value)` from an empty vector of `n` threads -/
def vecRun : List (List T) → List (Nat × T) → Res (List (List T))
  | v, [] => .ok v
  | v, p :: ps => match vecPush v p.1 p.2 with
    | .ok v' => vecRun v' ps
    | r => r

private theorem vecSize_eq (vals : List (List T)) : vecSize vals = vals.flatten.length := by
  have gen : ∀ (vals : List (List T)) (k : Nat), vals.foldl (fun n l => n + l.length) k = k + vals.flatten.length := by
    intro vals
    induction vals with
    | nil => intro k; rfl
    | cons l vals ih => intro k; rw [List.foldl_cons, ih]; simp; omega
  rw [vecSize, gen, Nat.zero_add]

/-- **C74 (1)**: indexing a threaded vector below its size never fails and enumerates the elements thread by
thread; an index at or above the size is reported. -/
theorem C74_index (vals : List (List T)) (ix : Nat) :
    vecAt vals ix = match vals.flatten[ix]? with | some v => .ok v | none => .throws := by
  have walk : ∀ (vals : List (List T)) (ix : Nat) (h : ix < vals.flatten.length), vecWalk vals ix = .ok vals.flatten[ix] := by
    intro vals
    induction vals with
    | nil => intro ix h; simp at h
    | cons l vals ih =>
      intro ix h
      simp only [vecWalk]
      by_cases hl : ix ≥ l.length
      · rw [if_pos hl, ih (ix - l.length) (by simp at h; simp; omega)]
        simp only [List.flatten_cons]
        rw [List.getElem_append_right hl]
      · rw [if_neg hl, List.getElem?_eq_getElem (by omega)]
        simp only [List.flatten_cons]
        rw [List.getElem_append_left (by omega)]
  unfold vecAt
  rw [vecSize_eq]
  by_cases h : ix ≥ vals.flatten.length
  · rw [if_pos h, List.getElem?_eq_none h]
  · rw [if_neg h, walk vals ix (by omega), List.getElem?_eq_getElem (by omega)]

/-- **C74 (2)**: whatever threads push, the vector holds exactly the pushed values (with multiplicity), its
size is their number, and each thread's values are in the order pushed. -/
theorem C74_push (n : Nat) (ps : List (Nat × T)) (h : ∀ p ∈ ps, p.1 < n) :
    ∃ v, vecRun (List.replicate n []) ps = .ok v ∧ v.flatten.Perm (ps.map (·.2)) ∧ vecSize v = ps.length ∧
      ∀ th, th < n → v[th]? = some ((ps.filter (fun p => p.1 = th)).map (·.2)) := by
  have gen : ∀ (ps : List (Nat × T)) (v : List (List T)), v.length = n → (∀ p ∈ ps, p.1 < n) →
      ∃ v', vecRun v ps = .ok v' ∧ v'.length = n ∧ v'.flatten.Perm (v.flatten ++ ps.map (·.2)) ∧
        ∀ th l, v[th]? = some l → v'[th]? = some (l ++ (ps.filter (fun p => p.1 = th)).map (·.2)) := by
    intro ps
    induction ps with
    | nil => intro v hl _; exact ⟨v, rfl, hl, by simp, by intro th l h; simp [h]⟩
    | cons p ps ih =>
      intro v hl hp
      have hth : p.1 < v.length := by rw [hl]; exact hp p (by simp)
      have e : vecPush v p.1 p.2 = .ok (v.set p.1 (v[p.1] ++ [p.2])) := by simp [vecPush, hth]
      obtain ⟨v', h1, h2, h3, h4⟩ := ih (v.set p.1 (v[p.1] ++ [p.2])) (by simpa using hl) (fun q hq => hp q (by simp [hq]))
      refine ⟨v', by simp only [vecRun, e, h1], h2, h3.trans ?_, ?_⟩
      · have hset : ∀ (v : List (List T)) (i : Nat) (hi : i < v.length) (x : T), (v.set i (v[i] ++ [x])).flatten.Perm (v.flatten ++ [x]) := by
          intro v
          induction v with
          | nil => intro i hi; simp at hi
          | cons l v ihv =>
            intro i hi x
            cases i with
            | zero =>
              simp only [List.set_cons_zero, List.getElem_cons_zero, List.flatten_cons, List.append_assoc]
              exact List.Perm.append_left _ List.perm_append_comm
            | succ i =>
              simp only [List.set_cons_succ, List.getElem_cons_succ, List.flatten_cons, List.append_assoc]
              exact List.Perm.append_left _ (ihv i (by simpa using hi) x)
        have := List.Perm.append_right (ps.map (·.2)) (hset v p.1 hth p.2)
        simpa using this
      · intro th l hl'
        by_cases he : p.1 = th
        · subst he
          have hvl : v[p.1] = l := by
            rw [List.getElem?_eq_getElem hth] at hl'; exact Option.some.inj hl'
          have := h4 p.1 (v[p.1] ++ [p.2]) (by simp [hth])
          rw [this, hvl]; simp
        · have := h4 th l (by rw [List.getElem?_set_ne he]; exact hl')
          rw [this]; simp [he]
  obtain ⟨v, h1, h2, h3, h4⟩ := gen ps (List.replicate n []) (by simp) h
  have h3' : v.flatten.Perm (ps.map (·.2)) := by simpa using h3
  refine ⟨v, h1, h3', ?_, ?_⟩
  · rw [vecSize_eq, h3'.length_eq]; simp
  · intro th hth
    have := h4 th [] (by simp [hth])
    simpa using this

example : vecRun (List.replicate 2 []) [(1, 'a'), (0, 'b'), (1, 'c')] = .ok [['b'], ['a', 'c']] ∧
    vecAt [['b'], ['a', 'c']] 2 = .ok 'c' := by decide

/-- **C74 (3)**: a cleared vector is empty and keeps its threads. -/
theorem C74_clear (v : List (List T)) : vecSize (vecClear v) = 0 ∧ (vecClear v).length = v.length := by
  refine ⟨?_, by simp [vecClear]⟩
  rw [vecSize_eq]; simp [vecClear]

/-! ## C54: energies by name -/

/-- what happens to the energy tracker during a simulation.  Each caller (functor, engine) has one cached
identifier `var` and always uses the same name with it. -/
inductive TOp (T : Type) where
  /-- `scene->energy->add(v,name,id,reset)` by thread `th` -/
  | add (th var : Nat) (v : T) (reset : Bool)
  /-- `scene->energy->set(v,name,id)` -/
  | set (var : Nat) (v : T)
  /-- `O.energy[name]=v` -/
  | pySet (name : String) (v : T)
  /-- a new step begins -/
  | step

/-- the tracker together with the cached identifiers of the callers -/
structure World (T : Type) where
  trk : Trk T
  cache : Nat → Option Nat

def World.exec [Zero T] [Add T] (nm : Nat → String) (w : World T) : TOp T → Res (World T)
  | .add th var v reset => match w.trk.add th v (nm var) (w.cache var) reset with
    | .ok (t, c) => .ok ⟨t, fun x => if x = var then c else w.cache x⟩
    | .throws => .throws
    | .ub => .ub
  | .set var v => match w.trk.set v (nm var) (w.cache var) with
    | .ok (t, c) => .ok ⟨t, fun x => if x = var then c else w.cache x⟩
    | .throws => .throws
    | .ub => .ub
  | .pySet name v => match w.trk.set v name none with
    | .ok (t, _) => .ok { w with trk := t }
    | .throws => .throws
    | .ub => .ub
  | .step => match w.trk.resetResettables with
    | .ok t => .ok { w with trk := t }
    | .throws => .throws
    | .ub => .ub

def World.run [Zero T] [Add T] (nm : Nat → String) : World T → List (TOp T) → Res (World T)
  | w, [] => .ok w
  | w, o :: os => match w.exec nm o with
    | .ok w' => World.run nm w' os
    | .throws => .throws
    | .ub => .ub

/-- specification: for each name its energy and whether it is reset at every step -/
abbrev Book (T : Type) := String → Option (T × Bool)

def Book.put (b : Book T) (n : String) (e : T × Bool) : Book T := fun m => if m = n then some e else b m

def bookExec [Zero T] [Add T] (nm : Nat → String) (b : Book T) : TOp T → Book T
  | .add _ var v reset => match b (nm var) with
    | some (x, r) => b.put (nm var) (x + v, r)
    | none => b.put (nm var) (v, reset)
  | .set var v => match b (nm var) with
    | some (_, r) => b.put (nm var) (v, r)
    | none => b.put (nm var) (v, false)
  | .pySet name v => match b name with
    | some (_, r) => b.put name (v, r)
    | none => b.put name (v, false)
  | .step => fun n => (b n).map fun (x, r) => if r then (0, true) else (x, r)

/-- threads exist and names are among `ns` -/
def TOp.valid (nm : Nat → String) (n : Nat) (ns : List String) : TOp T → Prop
  | .add th var _ _ => th < n ∧ nm var ∈ ns
  | .set var _ => nm var ∈ ns
  | .pySet name _ => name ∈ ns
  | .step => True

private structure Inv [Zero T] [Add T] (n : Nat) (ns : List String) (p : Nat) (t : Trk T) (b : Book T) : Prop where
  rep : ∃ xs, Rep t.energies xs ∧ xs.length = n ∧ t.energies.perCL = p ∧
    (∀ nm, b nm = (findName t.names nm).map fun i => (val xs i, t.resetStep.getD i false))
  ids : t.names.map (·.2) = (List.range t.energies.sz).reverse
  nodup : (t.names.map (·.1)).Nodup
  sub : ∀ x ∈ t.names.map (·.1), x ∈ ns
  flags : t.resetStep.length = t.energies.sz

private theorem find_mem {names : List (String × Nat)} {nm : String} {i : Nat} (h : findName names nm = some i) : (nm, i) ∈ names := by
  induction names with
  | nil => cases h
  | cons e es ih =>
    simp only [findName] at h
    split at h
    · rename_i he; injection h with h; subst he h; simp
    · exact List.mem_cons_of_mem _ (ih h)

private theorem find_none {names : List (String × Nat)} {nm : String} : findName names nm = none ↔ nm ∉ names.map (·.1) := by
  induction names with
  | nil => simp [findName]
  | cons e es ih =>
    simp only [findName]
    by_cases he : e.1 = nm
    · simp [he]
    · rw [if_neg he, ih]; simp [Ne.symm he]

private theorem find_lt [Zero T] [Add T] {n : Nat} {ns : List String} {p : Nat} {t : Trk T} {b : Book T} (h : Inv n ns p t b)
    {nm : String} {i : Nat} (hf : findName t.names nm = some i) : i < t.energies.sz := by
  have : i ∈ t.names.map (·.2) := List.mem_map.2 ⟨_, find_mem hf, rfl⟩
  rw [h.ids] at this; simpa using this

private theorem find_inj [Zero T] [Add T] {n : Nat} {ns : List String} {p : Nat} {t : Trk T} {b : Book T} (h : Inv n ns p t b)
    {a c : String} {i : Nat} (ha : findName t.names a = some i) (hc : findName t.names c = some i) : a = c := by
  have hnd : (t.names.map (·.2)).Nodup := by rw [h.ids]; exact List.nodup_reverse.2 List.nodup_range
  have := List.inj_on_of_nodup_map hnd (find_mem ha) (find_mem hc) rfl
  exact (Prod.mk.inj this).1

private theorem put_fresh {names : List (String × Nat)} {nm : String} (h : findName names nm = none) (i : Nat) :
    putName names nm i = (nm, i) :: names := by
  unfold putName
  congr 1
  rw [List.filter_eq_self]
  intro e he
  have := find_none.1 h
  simp only [bne_iff_ne, ne_eq]
  intro e1
  exact this (List.mem_map.2 ⟨e, he, e1⟩)

/-- registering a new name -/
private theorem register_inv [AddCommMonoid T] {n : Nat} {ns : List String} {p : Nat} {t : Trk T} {b : Book T} (h : Inv n ns p t b)
    (hcap : n = 1 ∨ ns.length ≤ p) (name : String) (hm : name ∈ ns) (hf : findName t.names name = none) (reset : Bool) :
    ∃ t', register t name reset = .ok (t', t.energies.sz) ∧ Inv n ns p t' (b.put name (0, reset)) ∧
      findName t'.names name = some t.energies.sz ∧ (∀ m i, findName t.names m = some i → findName t'.names m = some i) := by
  obtain ⟨xs, hr, hx, hp, hb⟩ := h.rep
  have hnodup : ((name, t.energies.sz) :: t.names).map (·.1) |>.Nodup := by
    rw [List.map_cons, List.nodup_cons]; exact ⟨find_none.1 hf, h.nodup⟩
  have hsub : ∀ x ∈ ((name, t.energies.sz) :: t.names).map (·.1), x ∈ ns := by
    intro x hx'
    rw [List.map_cons] at hx'
    rcases List.mem_cons.1 hx' with rfl | hx'
    · exact hm
    · exact h.sub x hx'
  have hlen : t.energies.sz + 1 ≤ ns.length := by
    have h1 := (List.subperm_of_subset hnodup hsub).length_le
    have h2 : t.names.length = t.energies.sz := by
      have := congrArg List.length h.ids; simpa using this
    simp at h1; omega
  obtain ⟨a', xs', h1, h2, h3, h4, h5, h6, h7⟩ := resize_ok hr (t.energies.sz + 1) (by
    rcases hcap with hcap | hcap
    · left; omega
    · rcases Nat.eq_zero_or_pos t.energies.nCL with h0 | h0
      · right; left; exact h0
      · right; right
        have : 1 * t.energies.perCL ≤ t.energies.nCL * t.energies.perCL := Nat.mul_le_mul_right _ h0
        omega)
  have hflags : ((t.resetStep ++ List.replicate (a'.sz - t.resetStep.length) false).take a'.sz |>.set (a'.sz - 1) reset) = t.resetStep ++ [reset] := by
    rw [h4, h.flags, show t.energies.sz + 1 - t.energies.sz = 1 by omega, List.take_of_length_le (by simp [h.flags])]
    rw [List.set_append_right _ _ (by rw [h.flags]; omega)]
    simp [h.flags]
  have hreg : register t name reset = .ok (⟨a', (name, t.energies.sz) :: t.names, t.resetStep ++ [reset]⟩, t.energies.sz) := by
    simp only [register, h1]
    rw [hflags, show a'.sz - 1 = t.energies.sz by omega, put_fresh hf]
  have hkeep : ∀ m i, findName t.names m = some i → findName ((name, t.energies.sz) :: t.names) m = some i := by
    intro m i hmi
    have hne : name ≠ m := by intro e; subst e; rw [hf] at hmi; cases hmi
    simp only [findName, if_neg hne, hmi]
  refine ⟨_, hreg, ⟨⟨xs', h2, by omega, h6.trans hp, ?_⟩, ?_, hnodup, hsub, ?_⟩, by simp [findName], hkeep⟩
  · intro m
    unfold Book.put
    by_cases he : m = name
    · subst he
      simp only [if_true, findName, Option.map_some]
      rw [h7 _ (by omega), if_neg (by omega)]
      simp [h.flags]
    · rw [if_neg he, hb m]
      simp only [findName, if_neg (Ne.symm he)]
      cases hmi : findName t.names m with
      | none => rfl
      | some i =>
        have hi := find_lt h hmi
        simp only [Option.map_some]
        rw [h7 i (by omega), if_pos hi, List.getD_append _ _ _ _ (by rw [h.flags]; exact hi)]
  · simp only [List.map_cons, h.ids, h4, List.range_succ, List.reverse_append, List.reverse_cons, List.reverse_nil, List.nil_append, List.singleton_append]
  · simp [h.flags, h4]

/-- changing the value of a registered name -/
private theorem change_inv [AddCommMonoid T] {n : Nat} {ns : List String} {p : Nat} {t : Trk T} {b : Book T} (h : Inv n ns p t b)
    {name : String} {i : Nat} (hf : findName t.names name = some i) {xs xs' : List (Nat → T)} {e' : Arr T}
    (hb : ∀ nm, b nm = (findName t.names nm).map fun i => (val xs i, t.resetStep.getD i false))
    (hr' : Rep e' xs') (hl : xs'.length = n) (hsz : e'.sz = t.energies.sz) (hp : e'.perCL = p) (w : T)
    (hv : ∀ j, val xs' j = if j = i then w else val xs j) :
    Inv n ns p { t with energies := e' } (b.put name (w, t.resetStep.getD i false)) := by
  refine ⟨⟨xs', hr', hl, hp, ?_⟩, by rw [h.ids]; simp [hsz], h.nodup, h.sub, by rw [h.flags]; simp [hsz]⟩
  intro m
  unfold Book.put
  by_cases he : m = name
  · subst he; simp [hf, hv]
  · rw [if_neg he, hb m]
    simp only
    cases hm : findName t.names m with
    | none => rfl
    | some j =>
      have : j ≠ i := fun e => he (find_inj h (e ▸ hm) hf)
      simp [hv, this]

/-- finding the identifier of a name, registering it if needed -/
private theorem use_inv [AddCommMonoid T] {n : Nat} {ns : List String} {p : Nat} {t : Trk T} {b : Book T} (h : Inv n ns p t b)
    (hcap : n = 1 ∨ ns.length ≤ p) (name : String) (hm : name ∈ ns) (cached : Option Nat)
    (hc : ∀ i, cached = some i → findName t.names name = some i) (reset : Bool) :
    ∃ t' i, useId t cached name reset = .ok (t', i) ∧ findName t'.names name = some i ∧
      (∀ m i, findName t.names m = some i → findName t'.names m = some i) ∧
      Inv n ns p t' (match b name with | some _ => b | none => b.put name (0, reset)) := by
  obtain ⟨xs, hr, hx, hp, hb⟩ := h.rep
  have found : ∀ i, findName t.names name = some i → (match b name with | some _ => b | none => b.put name (0, reset)) = b := by
    intro i hi
    have : b name = some (val xs i, t.resetStep.getD i false) := by rw [hb, hi]; rfl
    rw [this]
  cases cached with
  | some i =>
    have hi := hc i rfl
    refine ⟨t, i, rfl, hi, fun _ _ h => h, ?_⟩
    rw [found i hi]; exact h
  | none =>
    cases hf : findName t.names name with
    | some i =>
      refine ⟨t, i, by simp [useId, findId, hf], hf, fun _ _ h => h, ?_⟩
      rw [found i hf]; exact h
    | none =>
      obtain ⟨t', h1, h2, h3, h4⟩ := register_inv h hcap name hm hf reset
      refine ⟨t', _, by simp only [useId, findId, hf, h1], h3, h4, ?_⟩
      have : b name = none := by rw [hb, hf]; rfl
      rw [this]; exact h2

private theorem reset_inv [AddCommMonoid T] (n : Nat) (hn : 0 < n) (flags : List Bool) (e : Arr T) (xs : List (Nat → T)) (hr : Rep e xs)
    (hl : xs.length = n) : ∀ k, k ≤ e.sz → ∃ e' xs', resetLoop flags k e = .ok e' ∧ Rep e' xs' ∧ xs'.length = n ∧ e'.sz = e.sz ∧ e'.nCL = e.nCL ∧ e'.perCL = e.perCL ∧
      ∀ j, val xs' j = if j < k ∧ flags.getD j false = true then 0 else val xs j := by
  intro k
  induction k with
  | zero => intro _; exact ⟨e, xs, rfl, hr, hl, rfl, rfl, rfl, by intro j; simp⟩
  | succ k ih =>
    intro hk
    obtain ⟨e', xs', h1, h2, h3, h4, h5, h6, h7⟩ := ih (by omega)
    by_cases hfl : flags.getD k false = true
    · have hne : xs' ≠ [] := by intro e; rw [e] at h3; simp at h3; omega
      obtain ⟨e2, xs2, g1, g2, g3, g4, g5, g6, g7⟩ := set_ok h2 hne (by omega : k < e'.sz) 0
      refine ⟨e2, xs2, by simp only [resetLoop, h1]; rw [if_pos hfl]; exact g1, g2, by omega, by omega, by omega, by omega, ?_⟩
      intro j
      rw [g7, h7]
      by_cases hj : j = k
      · subst hj; simp only [if_true]; rw [if_pos ⟨by omega, hfl⟩]
      · rw [if_neg hj]
        by_cases hjk : j < k ∧ flags.getD j false = true
        · rw [if_pos hjk, if_pos ⟨by omega, hjk.2⟩]
        · rw [if_neg hjk, if_neg (fun h => hjk ⟨by omega, h.2⟩)]
    · refine ⟨e', xs', by simp only [resetLoop, h1]; rw [if_neg hfl], h2, h3, h4, h5, h6, ?_⟩
      intro j
      rw [h7]
      by_cases hj : j = k
      · subst hj; rw [if_neg (by omega), if_neg (fun h => hfl h.2)]
      · by_cases hjk : j < k ∧ flags.getD j false = true
        · rw [if_pos hjk, if_pos ⟨by omega, hjk.2⟩]
        · rw [if_neg hjk, if_neg (fun h => hjk ⟨by omega, h.2⟩)]

private theorem exec_inv [AddCommMonoid T] {n : Nat} (hn : 0 < n) {ns : List String} {p : Nat} (nm : Nat → String) {w : World T} {b : Book T}
    (h : Inv n ns p w.trk b) (hc : ∀ v i, w.cache v = some i → findName w.trk.names (nm v) = some i)
    (hcap : n = 1 ∨ ns.length ≤ p) (o : TOp T) (ho : o.valid nm n ns) :
    ∃ w', w.exec nm o = .ok w' ∧ Inv n ns p w'.trk (bookExec nm b o) ∧
      (∀ v i, w'.cache v = some i → findName w'.trk.names (nm v) = some i) := by
  have putput : ∀ (c : Book T) (name : String) (x y : T × Bool), (c.put name x).put name y = c.put name y := by
    intro c name x y; funext m; unfold Book.put; by_cases h : m = name <;> simp [h]
  have cachefix : ∀ (var i : Nat) (t1 : Trk T), findName t1.names (nm var) = some i →
      (∀ m i, findName w.trk.names m = some i → findName t1.names m = some i) →
      ∀ v k, (if v = var then some i else w.cache v) = some k → findName t1.names (nm v) = some k := by
    intro var i t1 h1 h2 v k hk
    by_cases e : v = var
    · subst e; simp at hk; subst hk; exact h1
    · rw [if_neg e] at hk; exact h2 _ _ (hc v k hk)
  have hset : ∀ (name : String) (_ : name ∈ ns) (cached : Option Nat) (_ : ∀ i, cached = some i → findName w.trk.names name = some i) (v : T),
      ∃ t' i, w.trk.set v name cached = .ok (t', some i) ∧ findName t'.names name = some i ∧
        (∀ m i, findName w.trk.names m = some i → findName t'.names m = some i) ∧
        Inv n ns p t' (match b name with | some (_, r) => b.put name (v, r) | none => b.put name (v, false)) := by
    intro name hm cached hcc v
    obtain ⟨t1, i, h1, h2, h3, h4⟩ := use_inv h hcap name hm cached hcc false
    obtain ⟨xs, hr, hx, hp, hb⟩ := h4.rep
    have hne : xs ≠ [] := by intro e; rw [e] at hx; simp at hx; omega
    obtain ⟨e', xs', g1, g2, g3, g4, g5, g6, g7⟩ := set_ok hr hne (find_lt h4 h2) v
    refine ⟨{ t1 with energies := e' }, i, by simp only [Trk.set, h1, g1], h2, h3, ?_⟩
    have := change_inv h4 h2 hb g2 (by omega) g4 (g6.trans hp) v g7
    cases hbn : b name with
    | none =>
      rw [hbn] at this hb
      have hfl : t1.resetStep.getD i false = false := by
        have := hb name
        rw [h2] at this
        simp [Book.put] at this
        simpa using this.2.symm
      rw [hfl, putput] at this; exact this
    | some e =>
      obtain ⟨x, r⟩ := e
      rw [hbn] at this hb
      have hfl : t1.resetStep.getD i false = r := by
        have := hb name
        rw [h2] at this
        simp only [hbn] at this
        simp at this
        simpa using this.2.symm
      rw [hfl] at this; exact this
  cases o with
  | add th var v reset =>
    obtain ⟨hth, hm⟩ := ho
    obtain ⟨t1, i, h1, h2, h3, h4⟩ := use_inv h hcap (nm var) hm (w.cache var) (hc var) reset
    obtain ⟨xs, hr, hx, hp, hb⟩ := h4.rep
    obtain ⟨e', xs', g1, g2, g3, g4, g5, g6, g7⟩ := add_ok hr (by omega : th < xs.length) (find_lt h4 h2) v
    refine ⟨⟨{ t1 with energies := e' }, fun x => if x = var then some i else w.cache x⟩, ?_, ?_, cachefix var i t1 h2 h3⟩
    · simp only [World.exec, Trk.add, h1, g1]
    · have := change_inv h4 h2 hb g2 (by omega) g4 (g6.trans hp) _ g7
      have hbi := hb (nm var)
      rw [h2] at hbi
      simp only [Option.map_some] at hbi
      simp only [bookExec]
      cases hbn : b (nm var) with
      | none =>
        rw [hbn] at this hbi
        simp [Book.put] at hbi
        obtain ⟨hv0, hfl⟩ := hbi
        rw [← hv0, zero_add, putput] at this
        have e : t1.resetStep.getD i false = reset := by simpa using hfl.symm
        rw [e] at this; exact this
      | some e =>
        obtain ⟨x, r⟩ := e
        rw [hbn] at this hbi
        simp only [hbn, Option.some.injEq, Prod.mk.injEq] at hbi
        rw [← hbi.1, ← hbi.2] at this
        exact this
  | set var v =>
    obtain ⟨t', i, h1, h2, h3, h4⟩ := hset (nm var) ho (w.cache var) (hc var) v
    refine ⟨⟨t', fun x => if x = var then some i else w.cache x⟩, by simp only [World.exec, h1], h4, cachefix var i t' h2 h3⟩
  | pySet name v =>
    obtain ⟨t', i, h1, h2, h3, h4⟩ := hset name ho none (by intro i hi; cases hi) v
    refine ⟨{ w with trk := t' }, by simp only [World.exec, h1], h4, fun v k hk => h3 _ _ (hc v k hk)⟩
  | step =>
    obtain ⟨xs, hr, hx, hp, hb⟩ := h.rep
    obtain ⟨e', xs', g1, g2, g3, g4, g5, g6, g7⟩ := reset_inv n hn w.trk.resetStep w.trk.energies xs hr hx w.trk.energies.sz (Nat.le_refl _)
    refine ⟨{ w with trk := { w.trk with energies := e' } }, by simp only [World.exec, Trk.resetResettables, g1], ?_, hc⟩
    refine ⟨⟨xs', g2, g3, g6.trans hp, ?_⟩, by rw [h.ids]; simp [g4], h.nodup, h.sub, by rw [h.flags]; simp [g4]⟩
    intro m
    simp only [bookExec, hb m, Option.map_map]
    cases hm : findName w.trk.names m with
    | none => rfl
    | some i =>
      have hi := find_lt h hm
      simp only [Option.map_some, Function.comp, g7]
      by_cases hfl : w.trk.resetStep.getD i false = true
      · rw [if_pos hfl, if_pos ⟨hi, hfl⟩]; rw [hfl]
      · rw [if_neg hfl, if_neg (fun h => hfl h.2)]

private theorem run_inv [AddCommMonoid T] {n : Nat} (hn : 0 < n) {ns : List String} {p : Nat} (nm : Nat → String)
    (hcap : n = 1 ∨ ns.length ≤ p) (os : List (TOp T)) : ∀ (w : World T) (b : Book T), Inv n ns p w.trk b →
    (∀ v i, w.cache v = some i → findName w.trk.names (nm v) = some i) → (∀ o ∈ os, o.valid nm n ns) →
    ∃ w', w.run nm os = .ok w' ∧ Inv n ns p w'.trk (os.foldl (bookExec nm) b) := by
  induction os with
  | nil => intro w b h _ _; exact ⟨w, rfl, h⟩
  | cons o os ih =>
    intro w b h hc ho
    obtain ⟨w1, h1, h2, h3⟩ := exec_inv hn nm h hc hcap o (ho o (by simp))
    obtain ⟨w2, h4, h5⟩ := ih w1 _ h2 h3 (fun o h => ho o (by simp [h]))
    exact ⟨w2, by simp only [World.run, h1, h4], h5⟩

/-- a new tracker -/
def emptyTrk (p n : Nat) : Trk T := ⟨Arr.new p n, [], []⟩

private theorem empty_inv [AddCommMonoid T] (p n : Nat) (hp : 0 < p) (ns : List String) : Inv n ns p (emptyTrk p n : Trk T) (fun _ => none) :=
  ⟨⟨_, new_rep p n hp, by simp, rfl, by intro m; rfl⟩, rfl, by simp [emptyTrk], by simp [emptyTrk], rfl⟩

/-- **C54 (1) (partial: operations do not interrupt each other, no `clear`, and either one thread or no more
names than fit one cache line)**: whatever threads and callers record energies under whatever names,
`O.energy[name]` is the sum of what was recorded under that name (since it was last set, or since the start
of the step for energies reset at each step), and `KeyError` for names never used. -/
theorem C54_by_name_partial [AddCommMonoid T] (n p : Nat) (hn : 0 < n) (hp : 0 < p) (nm : Nat → String) (ns : List String)
    (hcap : n = 1 ∨ ns.length ≤ p) (os : List (TOp T)) (ho : ∀ o ∈ os, o.valid nm n ns) :
    ∃ w, World.run nm ⟨emptyTrk p n, fun _ => none⟩ os = .ok w ∧
      ∀ name, w.trk.getItem name = match os.foldl (bookExec nm) (fun _ => none) name with
        | some (x, _) => .ok x
        | none => .throws := by
  obtain ⟨w, h1, h2⟩ := run_inv hn nm hcap os ⟨emptyTrk p n, fun _ => none⟩ (fun _ => none) (empty_inv p n hp ns) (by intro v i h; cases h) ho
  refine ⟨w, h1, fun name => ?_⟩
  obtain ⟨xs, hr, hx, hpp, hb⟩ := h2.rep
  rw [hb name, Trk.getItem]
  cases hf : findName w.trk.names name with
  | none => rfl
  | some i => simp only [Option.map_some]; exact get_ok hr (find_lt h2 hf)

/-- **C54 (2) (partial, as above)**: `O.energy.total()` is the sum of the energies of the names in use, each
counted once. -/
theorem C54_total_partial [AddCommMonoid T] (n p : Nat) (hn : 0 < n) (hp : 0 < p) (nm : Nat → String) (ns : List String)
    (hcap : n = 1 ∨ ns.length ≤ p) (os : List (TOp T)) (ho : ∀ o ∈ os, o.valid nm n ns) :
    ∃ (w : World T) (used : List String), World.run nm ⟨emptyTrk p n, fun _ => none⟩ os = .ok w ∧ used.Nodup ∧
      (∀ m, m ∈ used ↔ (os.foldl (bookExec nm) (fun _ => none) m).isSome) ∧
      w.trk.total = .ok (used.map fun m => match os.foldl (bookExec nm) (fun _ => none) m with | some (x, _) => x | none => 0).sum := by
  obtain ⟨w, h1, h2⟩ := run_inv hn nm hcap os ⟨emptyTrk p n, fun _ => none⟩ (fun _ => none) (empty_inv p n hp ns) (by intro v i h; cases h) ho
  obtain ⟨xs, hr, hx, hpp, hb⟩ := h2.rep
  refine ⟨w, w.trk.names.map (·.1), h1, h2.nodup, ?_, ?_⟩
  · intro m
    rw [hb m, Option.isSome_map]
    cases hf : findName w.trk.names m with
    | none => simp only [Option.isSome_none, Bool.false_eq_true, iff_false]; exact find_none.1 hf
    | some i => simp only [Option.isSome_some, iff_true]; exact List.mem_map.2 ⟨_, find_mem hf, rfl⟩
  · have tot : ∀ (k i : Nat) (acc : T), i + k ≤ w.trk.energies.sz →
        totalFrom w.trk.energies i k acc = .ok (acc + ((List.range' i k).map (val xs)).sum) := by
      intro k
      induction k with
      | zero => intro i acc _; simp [totalFrom]
      | succ k ih =>
        intro i acc hi
        simp only [totalFrom, get_ok hr (by omega : i < w.trk.energies.sz)]
        rw [ih (i+1) _ (by omega), List.range'_succ, List.map_cons, List.sum_cons, add_assoc]
    rw [Trk.total, tot w.trk.energies.sz 0 0 (by omega), zero_add, ← List.range_eq_range']
    have hmap : (w.trk.names.map (·.1)).map (fun m => match os.foldl (bookExec nm) (fun _ => none) m with | some (x, _) => x | none => 0) =
        (w.trk.names.map (·.2)).map (val xs) := by
      rw [List.map_map, List.map_map]
      apply List.map_congr_left
      intro e he
      have hfe : findName w.trk.names e.1 = some e.2 := by
        cases hf : findName w.trk.names e.1 with
        | none => exact absurd (List.mem_map.2 ⟨e, he, rfl⟩) (find_none.1 hf)
        | some i =>
          have := List.inj_on_of_nodup_map h2.nodup (find_mem hf) he rfl
          rw [← this]
      simp only [Function.comp, hb e.1, hfe, Option.map_some]
    rw [hmap, h2.ids, List.map_reverse, List.sum_reverse]

private def exOps : List (TOp Int) := [.add 0 0 5 false, .add 1 1 2 true, .add 1 0 3 false, .step, .add 0 1 7 true, .pySet "c" 4]
private def exNm : Nat → String := fun v => if v = 0 then "a" else "b"
example : (∀ o ∈ exOps, o.valid exNm 2 ["a", "b", "c"]) ∧ (2 = 1 ∨ ["a", "b", "c"].length ≤ 8) ∧
    exOps.foldl (bookExec exNm) (fun _ => none) "a" = some (8, false) ∧
    exOps.foldl (bookExec exNm) (fun _ => none) "b" = some (7, true) := by
  refine ⟨?_, by decide, by decide, by decide⟩
  intro o ho
  simp [exOps] at ho
  rcases ho with rfl | rfl | rfl | rfl | rfl | rfl <;> simp [TOp.valid, exNm]

/-- **C54 (3) (partial: the name is registered before the threads start)**: for every interleaving of any
number of threads adding under one name, the energy of that name is what it was plus the contributions of
the threads that have finished. -/
theorem C54_interleaving_partial [AddCommMonoid T] (n p : Nat) (hn : 0 < n) (hp : 0 < p) (nm : Nat → String) (ns : List String)
    (hcap : n = 1 ∨ ns.length ≤ p) (os : List (TOp T)) (ho : ∀ o ∈ os, o.valid nm n ns) (w : World T)
    (hw : World.run nm ⟨emptyTrk p n, fun _ => none⟩ os = .ok w) (name : String) (x : T) (hx : w.trk.getItem name = .ok x)
    (reset : Bool) (v : Nat → T) (sched : List Nat) :
    ∃ s, Par.run name reset v ⟨w.trk, none, List.replicate n .start⟩ sched = .ok s ∧
      s.trk.getItem name = .ok (x + ((List.range n).map fun th => if s.pc[th]? = some .done then v th else 0).sum) := by
  obtain ⟨w', h1, h2⟩ := run_inv hn nm hcap os ⟨emptyTrk p n, fun _ => none⟩ (fun _ => none) (empty_inv p n hp ns) (by intro v i h; cases h) ho
  rw [hw] at h1; injection h1 with h1; subst h1
  obtain ⟨xs0, hr0, hx0, hpp, hb⟩ := h2.rep
  obtain ⟨i, hf⟩ : ∃ i, findName w.trk.names name = some i := by
    cases hf : findName w.trk.names name with
    | none => rw [Trk.getItem, hf] at hx; cases hx
    | some i => exact ⟨i, rfl⟩
  have hi := find_lt h2 hf
  have hxv : x = val xs0 i := by
    rw [Trk.getItem, hf] at hx
    have := get_ok hr0 hi
    simp only at hx
    rw [this] at hx; injection hx with hx; exact hx.symm
  -- contributions of finished threads
  let done : List Pc → T := fun pc => ((List.range n).map fun th => if pc[th]? = some .done then v th else 0).sum
  have hsum : ∀ (m : Nat) (pc : List Pc) (th : Nat), th < m → pc[th]? ≠ some .done → th < pc.length →
      ((List.range m).map fun k => if (pc.set th .done)[k]? = some .done then v k else 0).sum =
      ((List.range m).map fun k => if pc[k]? = some .done then v k else 0).sum + v th := by
    intro m
    induction m with
    | zero => intro pc th h; omega
    | succ m ih =>
      intro pc th h1 h2 h3
      simp only [List.range_succ, List.map_append, List.map_cons, List.map_nil, List.sum_append, List.sum_cons, List.sum_nil, add_zero]
      by_cases e : th = m
      · subst e
        have : ((List.range th).map fun k => if (pc.set th Pc.done)[k]? = some .done then v k else 0) =
            ((List.range th).map fun k => if pc[k]? = some .done then v k else 0) := by
          apply List.map_congr_left
          intro k hk
          have : k < th := by simpa using hk
          rw [List.getElem?_set_ne (by omega)]
        rw [this, if_neg h2, if_pos (by simp [h3]), add_zero]
      · rw [ih pc th (by omega) h2 h3, List.getElem?_set_ne e]
        rw [add_right_comm]
  have hsame : ∀ (pc : List Pc) (th : Nat) (q : Pc), pc[th]? ≠ some .done → q ≠ .done → done (pc.set th q) = done pc := by
    intro pc th q h1 h2
    show List.sum _ = List.sum _
    congr 1
    apply List.map_congr_left
    intro k _
    by_cases e : th = k
    · subst e
      by_cases hl : th < pc.length
      · simp [hl, h2] at h1 ⊢
        intro h; exact absurd h h1
      · simp [hl]
    · rw [List.getElem?_set_ne e]
  have gen : ∀ (sched : List Nat) (s : Par T), (∃ xs, Rep s.trk.energies xs ∧ xs.length = n ∧ val xs i = x + done s.pc) → i < s.trk.energies.sz →
      s.trk.names = w.trk.names → (∀ k, s.id = some k → k = i) → s.pc.length = n → (∀ q ∈ s.pc, q ≠ .missing) → (∀ q ∈ s.pc, q = .ready → s.id ≠ none) →
      ∃ s', Par.run name reset v s sched = .ok s' ∧ s'.trk.getItem name = .ok (x + done s'.pc) := by
    intro sched
    induction sched with
    | nil =>
      rintro s ⟨xs, g1, g2, g3⟩ hsz hnm hid hl hmis hrdy
      refine ⟨s, rfl, ?_⟩
      rw [Trk.getItem, hnm, hf]
      simp only
      rw [get_ok g1 hsz, g3]
    | cons th sched ih =>
      rintro s ⟨xs, g1, g2, g3⟩ hsz hnm hid hl hmis hrdy
      cases hpc : s.pc[th]? with
      | none =>
        have e : s.step name reset th (v th) = .ok s := by simp [Par.step, hpc]
        simp only [Par.run, e]; exact ih s ⟨xs, g1, g2, g3⟩ hsz hnm hid hl hmis hrdy
      | some q =>
        have hthl : th < s.pc.length := (List.getElem?_eq_some_iff.1 hpc).1
        have memset : ∀ (q' : Pc) (r : Pc), r ∈ s.pc.set th q' → r = q' ∨ r ∈ s.pc := by
          intro q' r hr
          rcases List.mem_or_eq_of_mem_set hr with h | h
          · exact Or.inr h
          · exact Or.inl h
        cases q with
        | start =>
          have hnd : s.pc[th]? ≠ some .done := by rw [hpc]; simp
          cases hsid : s.id with
          | some k =>
            have e : s.step name reset th (v th) = .ok { s with pc := s.pc.set th .ready } := by simp [Par.step, hpc, hsid]
            simp only [Par.run, e]
            refine ih _ ⟨xs, g1, g2, by rw [g3, hsame _ _ _ hnd (by simp)]⟩ hsz hnm hid (by simpa using hl) ?_ ?_
            · intro r hr; rcases memset _ r hr with rfl | h
              · simp
              · exact hmis r h
            · intro r _ _; simp [hsid]
          | none =>
            have hf' : findName s.trk.names name = some i := by rw [hnm]; exact hf
            have e : s.step name reset th (v th) = .ok { s with id := some i, pc := s.pc.set th .ready } := by simp [Par.step, hpc, hsid, hf']
            simp only [Par.run, e]
            refine ih _ ⟨xs, g1, g2, by rw [g3, hsame _ _ _ hnd (by simp)]⟩ hsz hnm (by intro k hk; simp at hk; exact hk.symm) (by simpa using hl) ?_ ?_
            · intro r hr; rcases memset _ r hr with rfl | h
              · simp
              · exact hmis r h
            · intro r _ _; simp
        | missing => exact absurd rfl (hmis _ (List.mem_of_getElem? hpc))
        | ready =>
          cases hsid : s.id with
          | none => exact absurd hsid (hrdy _ (List.mem_of_getElem? hpc) rfl)
          | some k =>
            have hk := hid k hsid; subst hk
            obtain ⟨e', xs', q1, q2, q3, q4, q5, q6, q7⟩ := add_ok g1 (by omega : th < xs.length) hsz (v th)
            have e : s.step name reset th (v th) = .ok { s with trk := { s.trk with energies := e' }, pc := s.pc.set th .done } := by
              simp [Par.step, hpc, hsid, q1]
            simp only [Par.run, e]
            refine ih _ ⟨xs', q2, by omega, ?_⟩ (by rw [q4]; exact hsz) hnm (by intro j hj; exact hid j hj) (by simpa using hl) ?_ ?_
            · rw [q7, if_pos rfl, g3]
              show _ = x + List.sum _
              rw [hsum n s.pc th (by omega) (by rw [hpc]; simp) hthl, add_assoc]
            · intro r hr; rcases memset _ r hr with rfl | h
              · simp
              · exact hmis r h
            · intro r _ _; simp [hsid]
        | done =>
          have e : s.step name reset th (v th) = .ok s := by simp [Par.step, hpc]
          simp only [Par.run, e]; exact ih s ⟨xs, g1, g2, g3⟩ hsz hnm hid hl hmis hrdy
  refine gen sched ⟨w.trk, none, List.replicate n .start⟩ ⟨xs0, hr0, hx0, ?_⟩ hi rfl (by intro k h; cases h) (by simp) ?_ ?_
  · have : done (List.replicate n .start) = 0 := by
      show List.sum _ = 0
      have : ((List.range n).map fun th => if (List.replicate n Pc.start)[th]? = some .done then v th else (0 : T)) = (List.range n).map fun _ => 0 := by
        apply List.map_congr_left
        intro k hk
        have : k < n := by simpa using hk
        simp [this]
      rw [this, sum_map_zero]
    rw [this, add_zero]; exact hxv.symm
  · intro q hq; rw [List.eq_of_mem_replicate hq]; simp
  · intro q hq; rw [List.eq_of_mem_replicate hq]; simp

/-- **C54 violated (double registration)**: two threads add 1 and 2 under a name that is not yet known; for
the schedule below both find it missing and both register it; `O.energy['p']` is 2 instead of 3. -/
theorem C54_violated_double : ∃ (sched : List Nat) (s : Par Int),
    Par.run "p" false (fun th => (th : Int) + 1) ⟨emptyTrk 8 2, none, [.start, .start]⟩ sched = .ok s ∧
    s.pc = [.done, .done] ∧ s.trk.getItem "p" = .ok 2 ∧ s.trk.total = .ok 3 := by
  refine ⟨[0, 1, 0, 0, 1, 1], ?_⟩
  have h : (match Par.run "p" false (fun th => (th : Int) + 1) ⟨emptyTrk 8 2, none, [.start, .start]⟩ [0, 1, 0, 0, 1, 1] with
    | .ok s => decide (s.pc = [.done, .done]) && decide (s.trk.getItem "p" = .ok 2) && decide (s.trk.total = .ok 3)
    | _ => false) = true := by decide +kernel
  split at h
  · rename_i s hs
    simp only [Bool.and_eq_true, decide_eq_true_eq] at h
    exact ⟨s, hs, h.1.1, h.1.2, h.2⟩
  · cases h

/-- **C54 violated (after `clear`)**: a caller that recorded an energy before `O.energy.clear()` keeps its old
identifier: what it records afterwards is under no name (`KeyError`), and later counts for another name. -/
theorem C54_violated_clear : ∃ (t1 t2 t3 t4 t5 : Trk Int) (c c3 : Option Nat),
    (emptyTrk 8 2 : Trk Int).add 0 5 "a" none false = .ok (t1, c) ∧ t1.clear = .ok t2 ∧
    t2.add 0 3 "a" c false = .ok (t3, c) ∧ t3.getItem "a" = .throws ∧
    t3.add 0 1 "b" none false = .ok (t4, c3) ∧ t4.add 0 7 "a" c false = .ok (t5, c) ∧
    t5.getItem "b" = .ok 8 ∧ t5.getItem "a" = .throws := by
  have h : ((emptyTrk 8 2 : Trk Int).add 0 5 "a" none false).bind (fun (t1, c) => t1.clear.bind fun t2 =>
      (t2.add 0 3 "a" c false).bind fun (t3, c') => (t3.add 0 1 "b" none false).bind fun (t4, _) =>
      (t4.add 0 7 "a" c false).bind fun (t5, c'') => .ok (decide (c' = c) && decide (c'' = c) && decide (t3.getItem "a" = .throws) &&
        decide (t5.getItem "b" = .ok 8) && decide (t5.getItem "a" = .throws))) = .ok true := by decide +kernel
  cases h1 : (emptyTrk 8 2 : Trk Int).add 0 5 "a" none false with
  | throws => rw [h1] at h; cases h
  | ub => rw [h1] at h; cases h
  | ok a =>
  obtain ⟨t1, c⟩ := a
  rw [h1] at h; simp only [Res.bind_ok] at h
  cases h2 : t1.clear with
  | throws => rw [h2] at h; cases h
  | ub => rw [h2] at h; cases h
  | ok t2 =>
  rw [h2] at h; simp only [Res.bind_ok] at h
  cases h3 : t2.add 0 3 "a" c false with
  | throws => rw [h3] at h; cases h
  | ub => rw [h3] at h; cases h
  | ok a =>
  obtain ⟨t3, c'⟩ := a
  rw [h3] at h; simp only [Res.bind_ok] at h
  cases h4 : t3.add 0 1 "b" none false with
  | throws => rw [h4] at h; cases h
  | ub => rw [h4] at h; cases h
  | ok a =>
  obtain ⟨t4, c3⟩ := a
  rw [h4] at h; simp only [Res.bind_ok] at h
  cases h5 : t4.add 0 7 "a" c false with
  | throws => rw [h5] at h; cases h
  | ub => rw [h5] at h; cases h
  | ok a =>
  obtain ⟨t5, c''⟩ := a
  rw [h5] at h; simp only [Res.bind_ok, Res.ok.injEq, Bool.and_eq_true, decide_eq_true_eq] at h
  obtain ⟨⟨⟨⟨e1, e2⟩, e3⟩, e4⟩, e5⟩ := h
  subst e1 e2
  exact ⟨t1, t2, t3, t4, t5, _, c3, rfl, h2, h3, e3, h4, h5, e4, e5⟩

end Verif.Accu
