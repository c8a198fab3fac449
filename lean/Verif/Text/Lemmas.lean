import Verif.Text.Model
import Mathlib.Tactic

/-! # Lemmas on words, headers and lines -/
namespace Verif.Text

/-! ## Six digits -/

theorem ten_zpow_pos (e : ℤ) : (0 : ℝ) < (10 : ℝ) ^ e := zpow_pos (by norm_num) e

theorem log_le {x : ℝ} (h : x ≠ 0) : (10 : ℝ) ^ (Int.log 10 |x|) ≤ |x| := by
  have := Int.zpow_log_le_self (b := 10) (R := ℝ) (by norm_num) (abs_pos.2 h)
  exact_mod_cast this

theorem lt_log {x : ℝ} : |x| < (10 : ℝ) ^ (Int.log 10 |x| + 1) := by
  have := Int.lt_zpow_succ_log_self (b := 10) (R := ℝ) (by norm_num) |x|
  exact_mod_cast this

/-- `%g` changes a number by at most five millionths of it. -/
theorem g6_close (P : Py) (x : ℝ) : |P.g6 x - x| ≤ 5e-6 * |x| := by
  unfold Py.g6
  split_ifs with h
  · subst h; simp
  · have hu := ten_zpow_pos (Int.log 10 |x| - 5)
    have hle := log_le h
    have e5 : (10 : ℝ) ^ (Int.log 10 |x| - 5) * 10 ^ 5 = (10 : ℝ) ^ (Int.log 10 |x|) := by
      rw [← zpow_natCast, ← zpow_add₀ (by norm_num)]; norm_num
    generalize (10 : ℝ) ^ (Int.log 10 |x| - 5) = u at *
    have hn := P.near (x / u)
    have e : (P.rnd (x / u) : ℝ) * u - x = (P.rnd (x / u) - x / u) * u := by field_simp
    rw [e, abs_mul, abs_of_pos hu]
    have := mul_le_mul_of_nonneg_right hn hu.le
    norm_num at e5 ⊢
    linarith

theorem rnd_int (P : Py) (n : ℤ) {y : ℝ} (h : y = n) : P.rnd y = n := by
  have := P.near y
  rw [h] at this ⊢
  have h2 : |((P.rnd n - n : ℤ) : ℝ)| < 1 := by push_cast; linarith
  have h3 : |P.rnd n - n| < 1 := by exact_mod_cast h2
  have := Int.abs_lt_one_iff.1 h3
  omega

/-- Whole numbers below a million are kept. -/
theorem g6_int (P : Py) {n : ℤ} (h : |n| < 10 ^ 6) : P.g6 n = n := by
  unfold Py.g6
  split_ifs with h0
  · exact h0.symm
  · have hlog : Int.log 10 |(n : ℝ)| ≤ 5 := by
      by_contra hlt
      have h6 : (6 : ℤ) ≤ Int.log 10 |(n : ℝ)| := by omega
      have h1 := log_le h0
      have h2 : (10 : ℝ) ^ (6 : ℤ) ≤ (10 : ℝ) ^ (Int.log 10 |(n : ℝ)|) := zpow_le_zpow_right₀ (by norm_num) h6
      have h3 : |(n : ℝ)| < 10 ^ 6 := by exact_mod_cast h
      norm_num at h2 h3
      linarith
    obtain ⟨k, hk⟩ : ∃ k : ℕ, Int.log 10 |(n : ℝ)| - 5 = -(k : ℤ) := ⟨(5 - Int.log 10 |(n : ℝ)|).toNat, by omega⟩
    rw [hk, zpow_neg, zpow_natCast, div_inv_eq_mul, rnd_int P (n * 10 ^ k) (by push_cast; rfl)]
    push_cast
    field_simp

/-- Whole numbers from a million on stay that large. -/
theorem g6_big (P : Py) {n : ℤ} (h : 10 ^ 6 ≤ n) : 10 ^ 6 ≤ P.g6 n := by
  have hr : (10 : ℝ) ^ 6 ≤ n := by exact_mod_cast h
  have h0 : (n : ℝ) ≠ 0 := by intro e; rw [e] at hr; norm_num at hr
  have hp : 0 < (n : ℝ) := by norm_num at hr; linarith
  unfold Py.g6
  rw [if_neg h0, abs_of_pos hp]
  have hlog : 6 ≤ Int.log 10 (n : ℝ) := by
    have h2 := lt_log (x := (n : ℝ))
    rw [abs_of_pos hp] at h2
    by_contra hlt
    have h5 : Int.log 10 (n : ℝ) + 1 ≤ 6 := by omega
    have h3 : (10 : ℝ) ^ (Int.log 10 (n : ℝ) + 1) ≤ (10 : ℝ) ^ (6 : ℤ) := zpow_le_zpow_right₀ (by norm_num) h5
    norm_num at h3 hr
    linarith
  have hle := log_le h0
  rw [abs_of_pos hp] at hle
  obtain ⟨k, hk⟩ : ∃ k : ℕ, Int.log 10 (n : ℝ) - 5 = k := ⟨(Int.log 10 (n : ℝ) - 5).toNat, by omega⟩
  have hk1 : 1 ≤ k := by omega
  have e5 : (10 : ℝ) ^ (Int.log 10 (n : ℝ)) = 10 ^ 5 * 10 ^ k := by
    rw [show Int.log 10 (n : ℝ) = 5 + (k : ℤ) by omega, zpow_add₀ (by norm_num), zpow_natCast]; norm_num
  rw [hk, zpow_natCast]
  have hu : (10 : ℝ) ≤ 10 ^ k := by
    calc (10 : ℝ) = 10 ^ 1 := by norm_num
      _ ≤ 10 ^ k := pow_le_pow_right₀ (by norm_num) hk1
  have hu0 : (0 : ℝ) < 10 ^ k := by positivity
  have hy : (10 : ℝ) ^ 5 ≤ n / 10 ^ k := by
    rw [le_div_iff₀ hu0]; rw [e5] at hle; exact hle
  have hn := abs_le.1 (P.near (n / 10 ^ k))
  have hz : (10 ^ 5 : ℤ) ≤ P.rnd (n / 10 ^ k) := by
    have h1 : ((10 ^ 5 - 1 : ℤ) : ℝ) < (P.rnd (n / 10 ^ k) : ℝ) := by push_cast; norm_num at hy ⊢; linarith
    have : 10 ^ 5 - 1 < P.rnd (n / 10 ^ k) := by exact_mod_cast h1
    omega
  have hz' : (10 : ℝ) ^ 5 ≤ (P.rnd (n / 10 ^ k) : ℝ) := by exact_mod_cast hz
  calc (10 : ℝ) ^ 6 = 10 ^ 5 * 10 := by norm_num
    _ ≤ (P.rnd (n / 10 ^ k) : ℝ) * 10 ^ k := mul_le_mul hz' hu (by norm_num) (by linarith [hz', (by positivity : (0 : ℝ) ≤ 10 ^ 5)])

theorem int_small (P : Py) {n : ℤ} (h : |n| < 10 ^ 6) : P.int (.g n) = some n := by
  have e := g6_int P h
  have h3 : |(n : ℝ)| < 10 ^ 6 := by exact_mod_cast h
  simp only [Py.int]
  rw [e, Int.floor_intCast, if_pos ⟨rfl, h3⟩]

theorem int_big (P : Py) {n : ℤ} (h : 10 ^ 6 ≤ n) : P.int (.g n) = none := by
  have hb := g6_big P h
  simp only [Py.int]
  rw [if_neg]
  rintro ⟨-, h2⟩
  have := le_abs_self (P.g6 n)
  linarith

/-! ## What is kept of bodies -/

/-- The formats of positions. -/
def Plain (f : String) : Prop := f = "x_y_z_r" ∨ f = "x_y_z_r_matId" ∨ f = "id_x_y_z_r_matId"

/-- A sphere read, with numbers of six digits. -/
noncomputable def six (P : Py) (shift : V3) (scale : ℝ) (b : Body) (m : ℤ) : Sph := place shift scale ![P.g6 (b.pos 0), P.g6 (b.pos 1), P.g6 (b.pos 2)] (P.g6 (b.rad.getD 0)) m

theorem four_xyzr (P : Py) (b : Body) (ts : List Tok) : P.four (xyzr b ++ ts) = some (![P.g6 (b.pos 0), P.g6 (b.pos 1), P.g6 (b.pos 2)], P.g6 (b.rad.getD 0)) := rfl

/-- Whether a sphere is written in a format. -/
def keeps (f : String) (mask : ℤ) (b : Body) : Bool := chosen mask b && (f == "x_y_z_r" || b.mat.isSome)

/-- Its line. -/
def row (f : String) (b : Body) : List Tok :=
  if f = "x_y_z_r" then xyzr b else if f = "x_y_z_r_matId" then xyzr b ++ [.d (b.mat.getD 0)] else .d b.id :: xyzr b ++ [.d (b.mat.getD 0)]

/-- The material of the sphere read. -/
def matOf (f : String) (b : Body) : ℤ := if f = "x_y_z_r" then -1 else b.mat.getD 0

theorem write_plain {f : String} (hf : Plain f) (attrs : List (Body → Val)) {b : Body} {o : Out} (ho : o.cur = []) :
    write f attrs b o = .ok (if f == "x_y_z_r" || b.mat.isSome then { lines := o.lines ++ [row f b], cur := [], count := o.count + 1 } else o) := by
  rcases hf with rfl | rfl | rfl
  · simp [write, Out.put, Out.nl, Out.done, ho, glue, row]
  · rcases hb : b.mat with _ | m
    · simp [write, hb]
    · simp [write, hb, Out.put, Out.nl, Out.done, ho, glue, row]
  · rcases hb : b.mat with _ | m
    · simp [write, hb]
    · simp [write, hb, Out.put, Out.nl, Out.done, ho, glue, row]

theorem writeAll_plain {f : String} (hf : Plain f) (mask : ℤ) (attrs : List (Body → Val)) (bs : List Body) :
    ∀ o : Out, o.cur = [] → writeAll f mask attrs bs o = .ok { lines := o.lines ++ (bs.filter (keeps f mask)).map (row f), cur := [], count := o.count + (bs.filter (keeps f mask)).length } := by
  induction bs with
  | nil => intro o ho; simp [writeAll, ← ho]
  | cons b bs ih =>
    intro o ho
    unfold writeAll
    by_cases hc : chosen mask b = true
    · rw [if_pos hc, write_plain hf attrs ho, Res.bind_ok]
      by_cases hk : (f == "x_y_z_r" || b.mat.isSome) = true
      · rw [if_pos hk, ih _ rfl, List.filter_cons_of_pos (by simp only [keeps, hc, hk, Bool.and_self])]
        simp; omega
      · rw [if_neg hk, ih _ ho, List.filter_cons_of_neg (by simp only [keeps, hc, Bool.true_and]; exact hk)]
    · rw [if_neg hc, ih _ ho, List.filter_cons_of_neg (by simp [keeps, hc])]

/-- Lines which are skipped. -/
def Skip (l : List Tok) : Prop := ∃ s ts, l = .word s :: ts ∧ s.toList.head? = some '#' ∧ s ≠ "#format"

theorem line_skip (P : Py) (shift : V3) (scale : ℝ) (s : In) {l : List Tok} (h : Skip l) : P.line shift scale s l = .ok s := by
  obtain ⟨w, ts, rfl, h1, h2⟩ := h
  simp [Py.line, Tok.isW, Tok.hash, h1, h2]

theorem lines_append (P : Py) (shift : V3) (scale : ℝ) (l1 l2 : List (List Tok)) (s : In) :
    P.lines shift scale (l1 ++ l2) s = (P.lines shift scale l1 s).bind (P.lines shift scale l2) := by
  induction l1 generalizing s with
  | nil => simp [Py.lines]
  | cons l ls ih =>
    simp only [List.cons_append, Py.lines]
    rcases P.line shift scale s l with x | _ | _
    · simp only [Res.bind_ok, ih]
    · simp
    · simp

theorem lines_skip (P : Py) (shift : V3) (scale : ℝ) {ls : List (List Tok)} (h : ∀ l ∈ ls, Skip l) (s : In) : P.lines shift scale ls s = .ok s := by
  induction ls with
  | nil => rfl
  | cons l ls ih =>
    rw [Py.lines, line_skip P shift scale s (h l (by simp)), Res.bind_ok]
    exact ih fun x hx => h x (by simp [hx])

theorem sph_xyzr (P : Py) (shift : V3) (scale : ℝ) (b : Body) (ts : List Tok) (m : ℤ) : P.sph shift scale (xyzr b ++ ts) (some m) = some (six P shift scale b m) := rfl

theorem line_row (P : Py) (shift : V3) (scale : ℝ) {f : String} (hf : Plain f) (s : In) (hs : s.format = .word f) (b : Body) :
    P.line shift scale s (row f b) = .ok { s with ret := s.ret ++ [six P shift scale b (matOf f b)] } := by
  have hd : ∀ t ts, row f b = t :: ts → P.line shift scale s (row f b) = P.data shift scale s (row f b) := by
    intro t ts e
    rcases hf with rfl | rfl | rfl <;> simp [row, xyzr, Py.line, Tok.isW, Tok.hash]
  obtain ⟨t, ts, e⟩ : ∃ t ts, row f b = t :: ts := by rcases hf with rfl | rfl | rfl <;> exact ⟨_, _, rfl⟩
  rw [hd t ts e]
  clear hd e
  obtain ⟨fmt, ret, at'⟩ := s
  simp only at hs
  subst hs
  have h0 := sph_xyzr P shift scale b []
  rw [List.append_nil] at h0
  have h1 := sph_xyzr P shift scale b [.d (b.mat.getD 0)]
  rcases hf with rfl | rfl | rfl
  · simp [Py.data, Tok.isW, row, h0, In.take, matOf]
  · have e4 : (xyzr b ++ [.d (b.mat.getD 0)])[4]? = some (.d (b.mat.getD 0)) := rfl
    simp [Py.data, Tok.isW, row, matOf, In.take, h1, e4, Py.int]
  · have e4 : (xyzr b ++ [.d (b.mat.getD 0)])[4]? = some (.d (b.mat.getD 0)) := rfl
    simp [Py.data, Tok.isW, row, matOf, In.take, h1, e4, Py.int]

theorem lines_rows (P : Py) (shift : V3) (scale : ℝ) {f : String} (hf : Plain f) (bs : List Body) :
    ∀ s : In, s.format = .word f → P.lines shift scale (bs.map (row f)) s = .ok { s with ret := s.ret ++ bs.map fun b => six P shift scale b (matOf f b) } := by
  induction bs with
  | nil => intro s _; simp [Py.lines]
  | cons b bs ih =>
    intro s hs
    rw [List.map_cons, Py.lines, line_row P shift scale hf s hs, Res.bind_ok]
    have := ih { s with ret := s.ret ++ [six P shift scale b (matOf f b)] } hs
    rw [this]
    simp

end Verif.Text
