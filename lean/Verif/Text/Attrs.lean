import Verif.Text.Props

/-! # What text files keep of attributes (C270) -/
namespace Verif.Text

/-! ## Specification -/

/-- Numbers and vectors. -/
def Simple (v : Val) : Prop := (∃ x, v = .num x) ∨ ∃ u, v = .vec u

/-- Their components. -/
def comps : Val → List ℝ
  | .num x => [x]
  | .vec u => [u 0, u 1, u 2]
  | _ => []

/-- The word is read as the number, but for the sixth digit. -/
def Near (P : Py) (x : ℝ) (w : Tok) : Prop := ∃ y, P.float w = some y ∧ |y - x| ≤ 5e-6 * |x|

/-! ## Helpers -/

theorem writeAttrs_simple (b : Body) : ∀ (attrs : List (Body → Val)) (o : Out), (∀ a ∈ attrs, Simple (a b)) →
    writeAttrs b attrs o = .ok (o.more ((attrs.flatMap fun a => comps (a b)).map Tok.g), false)
  | [], o, _ => by simp [writeAttrs, Out.more]
  | a :: attrs, o, h => by
    have ih := fun o => writeAttrs_simple b attrs o fun x hx => h x (by simp [hx])
    unfold writeAttrs
    rcases h a (by simp) with ⟨x, hx⟩ | ⟨u, hu⟩
    · rw [hx]; simp only [ih]; simp [Out.more, comps, hx]
    · rw [hu]; simp only [ih]; simp [Out.more, comps, hu]

/-- A line with attributes. -/
def rowA (attrs : List (Body → Val)) (b : Body) : List Tok := xyzr b ++ (attrs.flatMap fun a => comps (a b)).map Tok.g

theorem writeAll_attrs (mask : ℤ) (attrs : List (Body → Val)) (bs : List Body) : ∀ o : Out, o.cur = [] → (∀ b ∈ bs, chosen mask b = true → ∀ a ∈ attrs, Simple (a b)) →
    writeAll "x_y_z_r_attrs" mask attrs bs o = .ok { lines := o.lines ++ (bs.filter (chosen mask)).map (rowA attrs), cur := [], count := o.count + (bs.filter (chosen mask)).length } := by
  induction bs with
  | nil => intro o ho _; simp [writeAll, ← ho]
  | cons b bs ih =>
    intro o ho h
    have h' : ∀ c ∈ bs, chosen mask c = true → ∀ a ∈ attrs, Simple (a c) := fun c hc => h c (by simp [hc])
    unfold writeAll
    by_cases hc : chosen mask b = true
    · rw [if_pos hc, List.filter_cons_of_pos hc]
      have hw : write "x_y_z_r_attrs" attrs b o = .ok { lines := o.lines ++ [rowA attrs b], cur := [], count := o.count + 1 } := by
        simp [write, writeAttrs_simple b attrs _ (h b (by simp) hc), Out.put, ho, glue, Out.more, Out.nl, Out.done, rowA]
      rw [hw, Res.bind_ok, ih _ rfl h']
      simp; omega
    · rw [if_neg hc, ih _ ho h', List.filter_cons_of_neg hc]

theorem line_rowA (P : Py) (shift : V3) (scale : ℝ) (b : Body) (ret : List Sph) (at' : List (List Tok)) (ts : List Tok) :
    P.line shift scale ⟨.word "x_y_z_r_attrs", ret, at'⟩ (xyzr b ++ ts) = .ok ⟨.word "x_y_z_r_attrs", ret ++ [six P shift scale b (-1)], at' ++ [ts]⟩ := by
  have hl : ∀ s ts, P.line shift scale s (xyzr b ++ ts) = P.data shift scale s (xyzr b ++ ts) := by intro s ts; simp [xyzr, Py.line, Tok.isW, Tok.hash]
  have hd : (xyzr b ++ ts).drop 4 = ts := rfl
  simp [hl, Py.data, Tok.isW, sph_xyzr, In.take, hd]

theorem lines_rowsA (P : Py) (shift : V3) (scale : ℝ) (attrs : List (Body → Val)) (bs : List Body) : ∀ ret at',
    P.lines shift scale (bs.map (rowA attrs)) ⟨.word "x_y_z_r_attrs", ret, at'⟩ =
      .ok ⟨.word "x_y_z_r_attrs", ret ++ bs.map fun b => six P shift scale b (-1), at' ++ bs.map fun b => (attrs.flatMap fun a => comps (a b)).map Tok.g⟩ := by
  induction bs with
  | nil => intro ret at'; simp [Py.lines]
  | cons b bs ih =>
    intro ret at'
    rw [List.map_cons, Py.lines]
    unfold rowA at ih ⊢
    rw [line_rowA, Res.bind_ok, ih]
    simp

theorem chosen_iff (mask : ℤ) (b : Body) : chosen mask b = true ↔ Wanted "x_y_z_r" mask b := by
  have := keeps_iff (f := "x_y_z_r") (.inl rfl) mask b
  rw [← this]
  simp [keeps]

open Classical in
theorem filter_chosen (mask : ℤ) (bs : List Body) : bs.filter (chosen mask) = bs.filter fun b => decide (Wanted "x_y_z_r" mask b) := by
  rw [← filter_keeps (.inl rfl)]
  apply List.filter_congr
  intro b _
  simp [keeps]

/-! ## C270 -/

open Classical in
/-- **C270, part**: with `x_y_z_r_attrs`, a comment of at most one line, and attributes that are numbers and vectors for all spheres of the group, the number returned
is that of these spheres, and import gives them in order, with the components of their attributes in order.  Missing: matrices, attributes some spheres do not have,
comments of several lines. -/
theorem C270_attrs_partial (P : Py) {comment : List (List String)} (hc : comment.length ≤ 1) (mask : ℤ) {attrs : List (Body → Val)} {bs : List Body}
    (ha : ∀ b ∈ bs, Wanted "x_y_z_r" mask b → ∀ a ∈ attrs, Simple (a b)) :
    ∃ file, textExt "x_y_z_r_attrs" comment mask attrs bs = .ok (file, (bs.filter fun b => decide (Wanted "x_y_z_r" mask b)).length) ∧
      ∀ (f' : String) (shift : V3) (scale : ℝ), ∃ ret vals, P.ymport f' shift scale file = .ok (ret, vals) ∧
        List.Forall₂ (Reads shift scale) (bs.filter fun b => decide (Wanted "x_y_z_r" mask b)) ret ∧
        List.Forall₂ (fun b ws => List.Forall₂ (Near P) (attrs.flatMap fun a => comps (a b)) ws) (bs.filter fun b => decide (Wanted "x_y_z_r" mask b)) vals := by
  rw [← filter_chosen]
  obtain ⟨ls, hh, hls⟩ : ∃ ls, header "x_y_z_r_attrs" comment = { lines := [.word "#format", .word "x_y_z_r_attrs"] :: ls, cur := [], count := 0 } ∧ ∀ l ∈ ls, Skip l := by
    rcases comment with _ | ⟨c, _ | ⟨_, _⟩⟩
    · exact ⟨[], by simp [header], by simp⟩
    · refine ⟨[[Tok.word "#", .word "x", .word "y", .word "z", .word "r"] ++ words c], by simp [header, Out.put, Out.nl, glue], ?_⟩
      intro l hl
      rw [List.mem_singleton] at hl
      subst hl
      exact ⟨"#", _, rfl, by decide, by decide⟩
    · simp at hc
  refine ⟨([.word "#format", .word "x_y_z_r_attrs"] :: ls) ++ (bs.filter (chosen mask)).map (rowA attrs), ?_, fun f' shift scale =>
    ⟨(bs.filter (chosen mask)).map fun b => six P shift scale b (-1), (bs.filter (chosen mask)).map fun b => (attrs.flatMap fun a => comps (a b)).map Tok.g, ?_, ?_, ?_⟩⟩
  · unfold textExt
    rw [hh, writeAll_attrs mask attrs bs _ rfl (fun b hb h => ha b hb ((chosen_iff mask b).1 h)), Res.bind_ok]
    simp [Out.file]
  · unfold Py.ymport
    rw [lines_append, Py.lines, line_format, Res.bind_ok, lines_skip P shift scale hls, Res.bind_ok, lines_rowsA]
    simp
  · exact forall₂_map_self fun b _ => six_reads P shift scale b _
  · exact forall₂_map_self fun b _ => forall₂_map_self fun x _ => ⟨P.g6 x, rfl, g6_close P x⟩

example : ∀ b ∈ [ball 2 none], Wanted "x_y_z_r" (-1) b → ∀ a ∈ [fun b : Body => Val.num b.dens, fun b => Val.vec b.pos], Simple (a b) := by
  intro b _ _ a ha
  simp at ha
  rcases ha with rfl | rfl
  · exact .inl ⟨_, rfl⟩
  · exact .inr ⟨_, rfl⟩

/-- **C270 violated**: matrices, for which nine columns are described, are always an exception. -/
theorem C270_violated_matrix (comment : List (List String)) {mask : ℤ} {b : Body} (hb : Wanted "x_y_z_r" mask b) {a : Body → Val} (ha : a b = .mat) (attrs : List (Body → Val)) (bs : List Body) :
    textExt "x_y_z_r_attrs" comment mask (a :: attrs) (b :: bs) = .throws := by
  simp [textExt, writeAll, (chosen_iff mask b).2 hb, write, writeAttrs, ha]

example : Wanted "x_y_z_r" (-1) (ball 2 none) := ⟨⟨1, rfl⟩, .inl (by norm_num), by rintro (h | h) <;> simp at h⟩

/-- **C270 violated**: if the first of two spheres does not have the attribute, its line is not ended: one sphere is counted, the second, but what is read is an exception or one sphere,
the first, and its radius is the text of two numbers. -/
theorem C270_violated_missing (P : Py) {mask : ℤ} {b c : Body} (hb : Wanted "x_y_z_r" mask b) (hc : Wanted "x_y_z_r" mask c) {a : Body → Val} (hab : a b = .missing) {x : ℝ} (hac : a c = .num x) :
    ∃ file, textExt "x_y_z_r_attrs" [] mask [a] [b, c] = .ok (file, 1) ∧
      ∀ f' ret vals, P.ymport f' 0 1 file = .ok (ret, vals) → ∃ s, ret = [s] ∧ (∀ i, |s.pos i - b.pos i| ≤ 5e-6 * |b.pos i|) ∧
        P.val (.mix (.g (b.rad.getD 0)) (.g (c.pos 0))) = some s.rad := by
  refine ⟨[[.word "#format", .word "x_y_z_r_attrs"], [.g (b.pos 0), .g (b.pos 1), .g (b.pos 2), .mix (.g (b.rad.getD 0)) (.g (c.pos 0)), .g (c.pos 1), .g (c.pos 2), .g (c.rad.getD 0), .g x]], ?_, ?_⟩
  · simp [textExt, header, writeAll, (chosen_iff mask b).2 hb, (chosen_iff mask c).2 hc, write, writeAttrs, hab, hac, Out.put, Out.more, Out.nl, Out.done, Out.file, glue, xyzr, Tok.join]
  · intro f' ret vals h
    rcases hv : P.val (.mix (.g (b.rad.getD 0)) (.g (c.pos 0))) with _ | v
    · simp [Py.ymport, Py.lines, line_format, Py.line, Tok.isW, Tok.hash, Py.data, Py.sph, Py.four, Py.float, hv, In.take] at h
    · simp [Py.ymport, Py.lines, line_format, Py.line, Tok.isW, Tok.hash, Py.data, Py.sph, Py.four, Py.float, hv, In.take] at h
      refine ⟨_, h.1.symm, ?_, by simp [place]⟩
      have := (six_reads P 0 1 b (-1)).pos
      intro i
      have := this i
      simpa [six, place] using this

example : ∃ (b c : Body) (a : Body → Val), Wanted "x_y_z_r" (-1) b ∧ Wanted "x_y_z_r" (-1) c ∧ a b = .missing ∧ a c = .num 5 := by
  refine ⟨ball 0 none, ball 2 (some 5), fun b => match b.mat with | some m => .num m | none => .missing, ?_, ?_, rfl, by simp [ball]⟩ <;>
    exact ⟨⟨1, rfl⟩, .inl (by norm_num), by rintro (h | h) <;> simp at h⟩

/-- **C270 violated**: with the second line of the comment begun by `#`, as asked for, all lines are one which does not begin with `#`; as `x` is no number, import is an exception. -/
theorem C270_violated_comment (P : Py) (hx : P.val (.word "x") = none) (mask : ℤ) (attrs : List (Body → Val)) (bs : List Body) {file : List (List Tok)} {n : ℕ}
    (h : textExt "x_y_z_r_attrs" [["spheres"], ["#", "velocity"]] mask attrs bs = .ok (file, n)) (f' : String) (shift : V3) (scale : ℝ) : P.ymport f' shift scale file = .throws := by
  have mono : ∀ (bs : List Body) (o o' : Out), writeAll "x_y_z_r_attrs" mask attrs bs o = .ok o' → ∃ ls, o'.lines = o.lines ++ ls := by
    have hwa : ∀ (b : Body) (attrs : List (Body → Val)) (o : Out) (r : Out × Bool), writeAttrs b attrs o = .ok r → r.1.lines = o.lines := by
      intro b attrs
      induction attrs with
      | nil => intro o r h; simp [writeAttrs] at h; simp [← h]
      | cons a attrs ih =>
        intro o r h
        unfold writeAttrs at h
        split at h
        · exact (ih _ _ h).trans rfl
        · exact (ih _ _ h).trans rfl
        · simp at h
        · exact ih _ _ h
        · simp at h; simp [← h]
        · simp at h
    intro bs
    induction bs with
    | nil => intro o o' h; simp [writeAll] at h; exact ⟨[], by simp [h]⟩
    | cons b bs ih =>
      intro o o' h
      unfold writeAll at h
      split_ifs at h with hc
      · have hw : write "x_y_z_r_attrs" attrs b o = (writeAttrs b attrs (o.put (xyzr b))).bind fun r => if r.2 then .ok r.1 else .ok (r.1.nl.done) := by simp [write]
        rw [hw] at h
        rcases hr : writeAttrs b attrs (o.put (xyzr b)) with r | _ | _
        · have hl := hwa _ _ _ _ hr
          rw [hr] at h
          by_cases h2 : r.2 = true
          · simp only [Res.bind_ok, h2, if_true] at h
            obtain ⟨ls, e⟩ := ih _ _ h
            exact ⟨ls, by rw [e, hl]; rfl⟩
          · simp only [Res.bind_ok, h2, if_false, Bool.false_eq_true] at h
            obtain ⟨ls, e⟩ := ih _ _ h
            exact ⟨r.1.cur :: ls, by rw [e]; simp [Out.done, Out.nl, hl, Out.put]⟩
        · rw [hr] at h; simp at h
        · rw [hr] at h; simp at h
      · exact ih _ _ h
  unfold textExt at h
  rcases hw : writeAll "x_y_z_r_attrs" mask attrs bs (header "x_y_z_r_attrs" [["spheres"], ["#", "velocity"]]) with o | _ | _
  · rw [hw, Res.bind_ok] at h
    obtain ⟨ls, e⟩ := mono _ _ _ hw
    have hf : ∃ ls', file = o.lines ++ ls' := by
      simp only [Res.ok.injEq, Prod.mk.injEq] at h
      rw [← h.1]
      unfold Out.file
      split_ifs
      · exact ⟨[], by simp⟩
      · exact ⟨_, rfl⟩
    obtain ⟨ls', rfl⟩ := hf
    rw [e]
    simp [header, Out.put, Out.nl, glue, words, Tok.join, Py.ymport, Py.lines, line_format, Py.line, Tok.isW, Tok.hash, Py.data, Py.sph, Py.four, Py.float, hx, In.take]
  · rw [hw] at h; simp at h
  · rw [hw] at h; simp at h

example : ∃ n, ∃ file, textExt "x_y_z_r_attrs" [["spheres"], ["#", "velocity"]] (-1) [fun b => .vec b.vel] [ball 0 none] = .ok (file, n) := by
  simp [textExt, header, writeAll, write, writeAttrs, chosen, ball, Out.put, Out.more, Out.nl, Out.done, Out.file, glue]

end Verif.Text
