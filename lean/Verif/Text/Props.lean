import Verif.Text.Lemmas

/-! # What text files keep of spheres (C269, C270, C271) -/
namespace Verif.Text

/-! ## Specification -/

/-- The format has a column for the material. -/
def HasMat (f : String) : Prop := f = "x_y_z_r_matId" ∨ f = "id_x_y_z_r_matId"

/-- `s` is the sphere `b` scaled and moved, but for the sixth digit. -/
structure Reads (shift : V3) (scale : ℝ) (b : Body) (s : Sph) : Prop where
  pos : ∀ i, |s.pos i - (shift i + scale * b.pos i)| ≤ 5e-6 * |scale * b.pos i|
  rad : ∀ r, b.rad = some r → |s.rad - scale * r| ≤ 5e-6 * |scale * r|

/-- It has the material, or none was given. -/
def ReadsMat (f : String) (b : Body) (s : Sph) : Prop := (HasMat f → b.mat = some s.mat) ∧ (¬HasMat f → s.mat = -1)

/-- Spheres of the group, those with a material if the format has one. -/
def Wanted (f : String) (mask : ℤ) (b : Body) : Prop := (∃ r, b.rad = some r) ∧ (mask < 0 ∨ 0 < Int.land mask b.mask) ∧ (HasMat f → ∃ m, b.mat = some m)

/-- Lines of the comment after the first begin with `#`, and are not a format. -/
def Commented (comment : List (List String)) : Prop := ∀ l ∈ comment.tail, ∃ s ts, l = s :: ts ∧ s.toList.head? = some '#' ∧ s ≠ "#format"

/-! ## Helpers -/

theorem keeps_iff {f : String} (hf : Plain f) (mask : ℤ) (b : Body) : keeps f mask b = true ↔ Wanted f mask b := by
  unfold keeps Wanted chosen HasMat
  rcases hf with rfl | rfl | rfl <;> rcases b.rad <;> rcases b.mat <;> simp

theorem six_reads (P : Py) (shift : V3) (scale : ℝ) (b : Body) (m : ℤ) : Reads shift scale b (six P shift scale b m) := by
  have key : ∀ c x : ℝ, |c + scale * P.g6 x - (c + scale * x)| ≤ 5e-6 * |scale * x| := by
    intro c x
    have e : c + scale * P.g6 x - (c + scale * x) = scale * (P.g6 x - x) := by ring
    rw [e, abs_mul, abs_mul]
    have := mul_le_mul_of_nonneg_left (g6_close P x) (abs_nonneg scale)
    linarith
  constructor
  · intro i
    fin_cases i
    · exact key (shift 0) (b.pos 0)
    · exact key (shift 1) (b.pos 1)
    · exact key (shift 2) (b.pos 2)
  · intro r hr
    have := key 0 r
    simp only [zero_add] at this
    simpa [six, place, hr] using this

theorem six_mat (P : Py) (shift : V3) (scale : ℝ) {f : String} (hf : Plain f) {mask : ℤ} {b : Body} (hb : Wanted f mask b) : ReadsMat f b (six P shift scale b (matOf f b)) := by
  obtain ⟨-, -, h⟩ := hb
  unfold ReadsMat HasMat at *
  rcases hf with rfl | rfl | rfl
  · simp [six, place, matOf]
  · obtain ⟨m, hm⟩ := h (by simp)
    simp [six, place, matOf, hm]
  · obtain ⟨m, hm⟩ := h (by simp)
    simp [six, place, matOf, hm]

theorem forall₂_map_self {α β : Type*} {R : α → β → Prop} {g : α → β} : ∀ {l : List α}, (∀ a ∈ l, R a (g a)) → List.Forall₂ R l (l.map g)
  | [], _ => .nil
  | a :: l, h => .cons (h a (by simp)) (forall₂_map_self fun x hx => h x (by simp [hx]))

theorem header_plain {f : String} (hf : Plain f) {comment : List (List String)} (hc : Commented comment) :
    ∃ ls, header f comment = { lines := [.word "#format", .word f] :: ls, cur := [], count := 0 } ∧ ∀ l ∈ ls, Skip l := by
  have ha : f ≠ "x_y_z_r_attrs" := by rcases hf with rfl | rfl | rfl <;> decide
  unfold header
  by_cases h : comment = []
  · exact ⟨[], by simp [h], by simp⟩
  · refine ⟨(Tok.word "#" :: words (comment.headD [])) :: comment.tail.map words, by simp [h, ha], ?_⟩
    intro l hl
    rcases List.mem_cons.1 hl with rfl | hl
    · exact ⟨"#", _, rfl, by decide, by decide⟩
    · obtain ⟨x, hx, rfl⟩ := List.mem_map.1 hl
      obtain ⟨s, ts, rfl, h1, h2⟩ := hc x hx
      exact ⟨s, words ts, rfl, h1, h2⟩

theorem line_format (P : Py) (shift : V3) (scale : ℝ) (s : In) (f : String) : P.line shift scale s [.word "#format", .word f] = .ok { s with format := .word f } := by
  simp [Py.line, Tok.isW]

open Classical in
theorem filter_keeps {f : String} (hf : Plain f) (mask : ℤ) (bs : List Body) : bs.filter (keeps f mask) = bs.filter fun b => decide (Wanted f mask b) := by
  apply List.filter_congr
  intro b _
  have := keeps_iff hf mask b
  by_cases h : Wanted f mask b
  · simp [h, this.2 h]
  · have : keeps f mask b = false := by rw [← Bool.not_eq_true]; exact fun e => h (this.1 e)
    simp [h, this]

/-! ## C269 -/

open Classical in
/-- **C269, part**: with one of the formats of positions, and further lines of the comment marked by `#`, the number returned is that of the spheres of the group,
and import gives these spheres in order, scaled and moved, with their materials, whatever format the import is told.  Missing: spheres without material are left
out if the format has one; six digits are kept; `id_…` does not give ids. -/
theorem C269_roundtrip_partial (P : Py) {f : String} (hf : Plain f) {comment : List (List String)} (hc : Commented comment) (mask : ℤ) (attrs : List (Body → Val)) (bs : List Body) :
    ∃ file, textExt f comment mask attrs bs = .ok (file, (bs.filter fun b => decide (Wanted f mask b)).length) ∧
      ∀ (f' : String) (shift : V3) (scale : ℝ), ∃ ret, P.ymport f' shift scale file = .ok (ret, []) ∧
        List.Forall₂ (fun b s => Reads shift scale b s ∧ ReadsMat f b s) (bs.filter fun b => decide (Wanted f mask b)) ret := by
  obtain ⟨ls, hh, hls⟩ := header_plain hf hc
  rw [← filter_keeps hf]
  refine ⟨([.word "#format", .word f] :: ls) ++ (bs.filter (keeps f mask)).map (row f), ?_, fun f' shift scale => ⟨(bs.filter (keeps f mask)).map fun b => six P shift scale b (matOf f b), ?_, ?_⟩⟩
  · unfold textExt
    rw [hh, writeAll_plain hf mask attrs bs _ rfl, Res.bind_ok]
    simp [Out.file]
  · unfold Py.ymport
    rw [lines_append, Py.lines, line_format, Res.bind_ok, lines_skip P shift scale hls, Res.bind_ok, lines_rows P shift scale hf _ _ rfl]
    simp
  · apply forall₂_map_self
    intro b hb
    have hw := (keeps_iff hf mask b).1 (List.mem_filter.1 hb).2
    exact ⟨six_reads P shift scale b _, six_mat P shift scale hf hw⟩

/-- A sphere of radius one. -/
def ball (x : ℝ) (m : Option ℤ) : Body where
  id := 0
  rad := some 1
  mask := 1
  pos := ![x, 0, 0]
  vel := 0
  angVel := 0
  mat := m
  dens := 1
  members := none

example : Plain "x_y_z_r_matId" ∧ Commented [["first"], ["#second"]] ∧ Wanted "x_y_z_r_matId" (-1) (ball 2 (some 3)) ∧ ¬Wanted "x_y_z_r_matId" (-1) (ball 2 none) := by
  refine ⟨by simp [Plain], ?_, ?_, ?_⟩
  · intro l hl
    simp at hl
    exact ⟨"#second", [], hl, by decide, by decide⟩
  · exact ⟨⟨1, rfl⟩, .inl (by norm_num), fun _ => ⟨3, rfl⟩⟩
  · rintro ⟨-, -, h⟩
    obtain ⟨m, hm⟩ := h (.inl rfl)
    simp [ball] at hm

/-- **C269 violated**: only non-spherical bodies are said to be skipped, but with `x_y_z_r_matId` a sphere without material is not written either, and nothing tells so. -/
theorem C269_violated_material (x : ℝ) (attrs : List (Body → Val)) :
    textExt "x_y_z_r_matId" [] (-1) attrs [ball x none] = .ok ([[.word "#format", .word "x_y_z_r_matId"]], 0) := by
  simp [textExt, header, writeAll, write, chosen, ball, Out.file]

theorem g6_collide (P : Py) : P.g6 1000001 = P.g6 1000000 := by
  have hl : ∀ x : ℝ, 10 ^ 6 ≤ x → x < 10 ^ 7 → Int.log 10 x = 6 := by
    intro x h1 h2
    have hp : 0 < x := by norm_num at h1; linarith
    have a := (Int.zpow_le_iff_le_log (b := 10) (R := ℝ) (by norm_num) hp (x := 6)).1 (by norm_num at h1 ⊢; exact h1)
    have b := (Int.lt_zpow_iff_log_lt (b := 10) (R := ℝ) (by norm_num) hp (x := 7)).1 (by norm_num at h2 ⊢; exact h2)
    omega
  unfold Py.g6
  rw [if_neg (by norm_num), if_neg (by norm_num), abs_of_pos (by norm_num), abs_of_pos (by norm_num), hl 1000001 (by norm_num) (by norm_num), hl 1000000 (by norm_num) (by norm_num)]
  norm_num
  have h1 : P.rnd (1000000 / 10) = 100000 := rnd_int P 100000 (by norm_num)
  have h2 : P.rnd (1000001 / 10) = 100000 := by
    have h := abs_le.1 (P.near (1000001 / 10))
    have a : ((99999 : ℤ) : ℝ) < (P.rnd (1000001 / 10) : ℝ) := by push_cast; norm_num at h ⊢; linarith [h.1]
    have b : (P.rnd (1000001 / 10) : ℝ) < ((100001 : ℤ) : ℝ) := by push_cast; norm_num at h ⊢; linarith [h.2]
    have a' : 99999 < P.rnd (1000001 / 10) := by exact_mod_cast a
    have b' : P.rnd (1000001 / 10) < 100001 := by exact_mod_cast b
    omega
  norm_num at h1
  rw [h1, h2]

/-- **C269 violated**: two unit spheres side by side, far from the origin, are one place after export and import. -/
theorem C269_violated_digits (P : Py) (attrs : List (Body → Val)) : ∃ file s,
    textExt "x_y_z_r" [] (-1) attrs [ball 1000000 none, ball 1000001 none] = .ok (file, 2) ∧ P.ymport "x_y_z_r" 0 1 file = .ok ([s, s], []) := by
  refine ⟨[[.word "#format", .word "x_y_z_r"], xyzr (ball 1000000 none), xyzr (ball 1000001 none)], six P 0 1 (ball 1000000 none) (-1), ?_, ?_⟩
  · simp [textExt, header, writeAll, write, chosen, ball, Out.file, Out.put, Out.nl, Out.done, glue]
  · have e : six P 0 1 (ball 1000001 none) (-1) = six P 0 1 (ball 1000000 none) (-1) := by simp [six, ball, g6_collide P]
    have h := lines_rows P 0 1 (f := "x_y_z_r") (.inl rfl) [ball 1000000 none, ball 1000001 none] ⟨.word "x_y_z_r", [], []⟩ rfl
    unfold Py.ymport
    rw [Py.lines, line_format, Res.bind_ok]
    rw [show [xyzr (ball 1000000 none), xyzr (ball 1000001 none)] = [ball 1000000 none, ball 1000001 none].map (row "x_y_z_r") by simp [row], h]
    simp [matOf, e]

/-! ## C271 -/

/-- No line gives a format. -/
def NoFormat (file : List (List Tok)) : Prop := ∀ l ∈ file, ∀ t ∈ l.head?, t.isW "#format" = false

/-- Lines which do not begin with `#`. -/
def noHash (file : List (List Tok)) : List (List Tok) := file.filter fun l => !(l.head?.any Tok.hash)

theorem lines_noHash (P : Py) (shift : V3) (scale : ℝ) {file : List (List Tok)} (h : NoFormat file) : ∀ s, P.lines shift scale file s = P.lines shift scale (noHash file) s := by
  induction file with
  | nil => intro s; rfl
  | cons l ls ih =>
    intro s
    have ih' := ih fun x hx => h x (by simp [hx])
    rcases l with _ | ⟨t, ts⟩
    · simp [noHash, Py.lines, Py.line]
    · have ht : t.isW "#format" = false := h (t :: ts) (by simp) t (by simp)
      by_cases hh : t.hash = true
      · rw [Py.lines, show noHash ((t :: ts) :: ls) = noHash ls by simp [noHash, hh]]
        simp only [Py.line, ht, hh, if_true, Res.bind_ok, Bool.false_eq_true, if_false]
        exact ih' s
      · rw [Py.lines, show noHash ((t :: ts) :: ls) = (t :: ts) :: noHash ls by simp [noHash, hh], Py.lines]
        congr 1
        funext x
        exact ih' x

/-- **C271, part**: if no line begins with the word `#format`, all lines which begin with `#` are skipped.  Missing: lines of `#format`. -/
theorem C271_skips_partial (P : Py) (f : String) (shift : V3) (scale : ℝ) {file : List (List Tok)} (h : NoFormat file) :
    P.ymport f shift scale file = P.ymport f shift scale (noHash file) ∧ P.text shift scale file = P.text shift scale (noHash file) := by
  unfold Py.text Py.ymport
  constructor <;> rw [lines_noHash P shift scale h]

example : NoFormat [[.word "#", .word "x"], [.d 1, .d 2, .d 3, .d 4]] ∧ noHash [[.word "#", .word "x"], [.d 1, .d 2, .d 3, .d 4]] = [[.d 1, .d 2, .d 3, .d 4]] := by
  constructor
  · intro l hl
    simp at hl
    rcases hl with rfl | rfl <;> simp [Tok.isW]
  · simp [noHash, Tok.hash]

/-- **C271 violated**: a line of `#format` is not skipped, it replaces the format given: the result does not depend on the format, and `text`, which is for files of four
columns, reads materials. -/
theorem C271_violated (P : Py) (shift : V3) (scale : ℝ) (b : Body) :
    (∀ f' f l ls, P.ymport f' shift scale ([.word "#format", .word f] :: ls) = P.ymport l shift scale ([.word "#format", .word f] :: ls)) ∧
    (∃ s, P.text shift scale [[.word "#format", .word "x_y_z_r_matId"], xyzr b ++ [.d 7]] = .ok ([s], []) ∧ s.mat = 7) ∧
    (∃ s, P.text shift scale [xyzr b ++ [.d 7]] = .ok ([s], []) ∧ s.mat = -1) ∧
    P.text shift scale [[.word "#format", .word "other"], xyzr b] = .throws := by
  have h7 := sph_xyzr P shift scale b [.d 7]
  have e4 : (xyzr b ++ [.d 7])[4]? = some (.d 7) := rfl
  have hl : ∀ s ts, P.line shift scale s (xyzr b ++ ts) = P.data shift scale s (xyzr b ++ ts) := by intro s ts; simp [xyzr, Py.line, Tok.isW, Tok.hash]
  have hl0 := fun s => hl s []
  simp only [List.append_nil] at hl0
  refine ⟨?_, ⟨six P shift scale b 7, ?_, rfl⟩, ⟨six P shift scale b (-1), ?_, rfl⟩, ?_⟩
  · intro f' f l ls
    simp [Py.ymport, Py.lines, line_format]
  · simp [Py.text, Py.ymport, Py.lines, line_format, hl, Py.data, Tok.isW, h7, e4, Py.int, In.take]
  · simp [Py.text, Py.ymport, Py.lines, hl, Py.data, Tok.isW, h7, In.take]
  · simp [Py.text, Py.ymport, Py.lines, line_format, hl0, Py.data, Tok.isW]

/-- **C271**: an empty line in the file is an exception, wherever it is. -/
theorem C271_blank (P : Py) (f : String) (shift : V3) (scale : ℝ) (l1 l2 : List (List Tok)) (r : List Sph × List (List Tok)) : P.ymport f shift scale (l1 ++ [] :: l2) ≠ .ok r := by
  unfold Py.ymport
  rw [lines_append]
  rcases P.lines shift scale l1 _ with s | _ | _
  · simp [Py.lines, Py.line]
  · simp
  · simp

end Verif.Text
