import Verif.Proofs.Layout
import Verif.Proofs.Trace
import Verif.Spec.Silent
/-
C29, C30, C31, C68, C69: what the output renderer is told to print for text.

The statements are about the recording renderer, which writes down every call; C68 carries them over to every output
renderer.
-/
namespace Thermal
open Renderer

/-- C68. Every output renderer gets the same calls in the same order with the same contexts, and produces the same number of
outputs: whatever a renderer does with a stream, the recording of that stream, replayed, does the same. -/
theorem C68_same_calls {σ Out : Type} (R : OutputRenderer σ Out) (ext : Ext) (s : σ) (bytes : List Byte) (outs errs r)
    (h : render R ext (Renderer.new s) bytes = .ok (outs, errs, r)) :
    ∃ units errs' t, render recorder ext (Renderer.new []) bytes = .ok (units, errs', t) ∧
      replay R t.child (s, []) = .ok (r.child, outs) ∧ t.context = r.context ∧ t.spanBuffer = r.spanBuffer ∧
      units.length = outs.length ∧
      errs'.filter (·.kind ≠ .childRenderError) = errs.filter (·.kind ≠ .childRenderError) := by
  simp only [render, bind_ok, pure_ok] at h ⊢
  obtain ⟨cmds, h1, r1, h2, h3⟩ := h
  obtain ⟨t, h4, h5⟩ := processCommands_rec (Rec.start (R := R) (r := Renderer.new s)) h2
  simp only [Prod.mk.injEq] at h3
  obtain ⟨rfl, rfl, rfl⟩ := h3
  refine ⟨t.outputBuffer, t.errorBuffer, _, ⟨cmds, h1, t, h4, rfl⟩, h5.calls, h5.context, h5.spans, ?_, h5.errors⟩
  obtain ⟨k, e1, e2⟩ := h5.outputs
  simp only [Renderer.new, List.length_nil] at e2
  omega

/-- C68, two output renderers get the same calls. -/
theorem C68_two {σ Out σ' Out' : Type} (R : OutputRenderer σ Out) (R' : OutputRenderer σ' Out') (ext : Ext) (s : σ) (s' : σ')
    (bytes : List Byte) (outs errs r outs' errs' r')
    (h : render R ext (Renderer.new s) bytes = .ok (outs, errs, r)) (h' : render R' ext (Renderer.new s') bytes = .ok (outs', errs', r')) :
    (∃ calls, replay R calls (s, []) = .ok (r.child, outs) ∧ replay R' calls (s', []) = .ok (r'.child, outs')) ∧
      r.context = r'.context ∧ outs.length = outs'.length := by
  obtain ⟨u, e, t, a1, a2, a3, a4, a5, _⟩ := C68_same_calls R ext s bytes outs errs r h
  obtain ⟨u', e', t', b1, b2, b3, b4, b5, _⟩ := C68_same_calls R' ext s' bytes outs' errs' r' h'
  rw [a1, ok_ok] at b1
  simp only [Prod.mk.injEq] at b1
  obtain ⟨rfl, _, rfl⟩ := b1
  exact ⟨⟨_, a2, b2⟩, by rw [← a3, b3], by omega⟩

/-- C68, a concrete stream: text, a line feed, more text and a form feed. -/
example : ∃ units errs t, render recorder noExt (Renderer.new []) [72, 105, 10, 72, 111, 12] = .ok (units, errs, t) ∧
    (t.child.flatMap (fun x => x.2.spans)).map (fun s => s.text) = ["Hi".toList, "Ho".toList] ∧ units.length = 2 := by
  refine ⟨_, _, _, rfl, ?_⟩; decide +kernel

/-! ### The lines -/

/-- The calls that `process_text` makes for the lines. -/
theorem renderLines_calls {ls : List (List TextSpan)} {r r' : Recording} (h : renderLines recorder ls r = .ok r') :
    ∃ calls, r'.child = r.child ++ calls ∧ r'.context = r.context ∧ calls.flatMap (·.2.spans) = ls.flatten ∧
      calls.map (·.2.spans) = ls.filter (· ≠ []) ∧
      ∀ x ∈ calls, x.1 = r.context ∧ ∃ f l off, x.2 = .text (f :: l) off (lineHeight (f :: l)) f.justify ∧
        ∃ w, lineWidth (f :: l) 0 = .ok w ∧ lineOffset f.justify r.context.getWidth w = .ok off := by
  induction ls generalizing r with
  | nil => simp only [renderLines, ok_ok] at h; subst h; exact ⟨[], by simp⟩
  | cons l ls ih =>
    simp only [renderLines, bind_ok] at h
    obtain ⟨r1, h1, h2⟩ := h
    obtain ⟨calls, e1, e2, e3, e4, e5⟩ := ih h2
    cases l with
    | nil =>
      simp only [renderLine, ok_ok] at h1; subst h1
      exact ⟨calls, e1, e2, by simpa using e3, by simpa using e4, e5⟩
    | cons f l =>
      simp only [renderLine, bind_ok, pure_ok, recorder, ok_ok] at h1
      obtain ⟨w, hw, off, ho, s, rfl, rfl⟩ := h1
      refine ⟨(r.context, .text (f :: l) off (lineHeight (f :: l)) f.justify) :: calls, by rw [e1]; simp only [List.append_assoc, List.singleton_append], e2, ?_, ?_, ?_⟩
      · rw [List.flatMap_cons, e3]; rfl
      · rw [List.map_cons, e4, List.filter_cons]; rfl
      · intro x hx
        rcases List.mem_cons.1 hx with h | h
        · subst h; exact ⟨rfl, f, l, off, rfl, w, hw, ho⟩
        · exact e5 x h

/-- The calls and the layout behind them. -/
theorem processText_calls {r r' : Recording} (h : processText recorder r = .ok r') (hne : r.spanBuffer ≠ []) :
    ∃ calls l ss, r'.child = r.child ++ calls ∧
      layoutWords r.context.getWidth (r.spanBuffer.flatMap TextSpan.breakIntoWords) ⟨r.context, [], []⟩ = .ok l ∧
      r'.context = l.context ∧ Steps ⟨r.context, [], []⟩ ss l ∧ (∀ s ∈ ss, ∃ w ∈ r.spanBuffer, SameStyle w s) ∧
      ss.flatMap TextSpan.styled = ((r.spanBuffer.flatMap TextSpan.breakIntoWords).filter
        (fun w => !(w.text == ['\n'] || w.text == ['\t']))).flatMap TextSpan.styled ∧
      calls.flatMap (·.2.spans) = l.all.flatten ∧ calls.map (·.2.spans) = l.all.filter (· ≠ []) ∧
      ∀ x ∈ calls, x.1 = r'.context ∧ ∃ f l off, x.2 = .text (f :: l) off (lineHeight (f :: l)) f.justify ∧
        ∃ w, lineWidth (f :: l) 0 = .ok w ∧ lineOffset f.justify r'.context.getWidth w = .ok off := by
  unfold processText at h
  rw [if_neg hne] at h
  simp only [bind_ok, layoutText, pure_ok] at h
  obtain ⟨_, ⟨l, h1, rfl⟩, h⟩ := h
  obtain ⟨ss, a1, a2, a3⟩ := layoutWords_steps h1 rfl
  obtain ⟨calls, e1, e2, e3, e4, e5⟩ := renderLines_calls h
  dsimp only at e1 e2 e3 e4 e5
  refine ⟨calls, l, ss, e1, h1, e2, a1, ?_, a3, ?_, ?_, ?_⟩
  · intro s hs
    obtain ⟨w, hw, h'⟩ := a2 s hs
    obtain ⟨x, hx, hw⟩ := List.mem_flatMap.1 hw
    refine ⟨x, hx, ?_⟩
    have := (C27_words x).2 w hw
    unfold SameStyle at this h' ⊢
    rw [this] at h'
    exact h'
  · rw [e3]; unfold Layout.all; split <;> simp_all
  · rw [e4]; unfold Layout.all; split <;> simp_all
  · rw [e2]; exact e5

theorem words_styled (s : TextSpan) : s.breakIntoWords.flatMap TextSpan.styled = s.styled := by
  have h := (C27_words s).1.lossless
  have h2 : s.breakIntoWords.flatMap TextSpan.styled =
      (s.breakIntoWords.map (·.text)).flatten.map (fun c => (c, { s with text := [], dimensions := none })) := by
    unfold TextSpan.breakIntoWords
    generalize wordsLoop s.text [] = ws
    induction ws with
    | nil => rfl
    | cons x xs ih => simp only [List.map_cons, List.flatMap_cons, List.flatten_cons, List.map_append, ih]; rfl
  rw [h2, h]; rfl

theorem filter_control (ws : List TextSpan) :
    ((ws.filter (fun w => !(w.text == ['\n'] || w.text == ['\t']))).flatMap TextSpan.styled).filter (fun p => !isControl p.1) =
      (ws.flatMap TextSpan.styled).filter (fun p => !isControl p.1) := by
  induction ws with
  | nil => rfl
  | cons w ws ih =>
    rw [List.filter_cons]
    split
    · simp only [List.flatMap_cons, List.filter_append, ih]
    · next hc =>
      rw [ih, List.flatMap_cons, List.filter_append]
      have : w.text = ['\n'] ∨ w.text = ['\t'] := by
        simp only [Bool.not_eq_true', Bool.not_eq_false, Bool.or_eq_true, beq_iff_eq] at hc; exact hc
      rcases this with e | e <;> simp [TextSpan.styled, e, isControl]

/-- C29. Flushing the collected text makes only `render_text` calls with non-empty lines, and up to line feeds and tabs the
characters handed over are the collected ones, in order, each with its style.  If line feeds and tabs come as spans of
their own (as the LF and HT commands give them) they are handed over without any of them. -/
theorem C29_text_kept (r r' : Recording) (h : processText recorder r = .ok r') :
    ∃ calls, r'.child = r.child ++ calls ∧ (∀ x ∈ calls, ∃ l o m j, x.2 = .text l o m j ∧ l ≠ []) ∧
      ((calls.flatMap (·.2.spans)).flatMap TextSpan.styled).filter (fun p => !isControl p.1) =
        (r.spanBuffer.flatMap TextSpan.styled).filter (fun p => !isControl p.1) ∧
      ((∀ s ∈ r.spanBuffer, ∀ c ∈ s.text, isControl c → s.text = [c]) →
        (calls.flatMap (·.2.spans)).flatMap TextSpan.styled =
          (r.spanBuffer.flatMap TextSpan.styled).filter (fun p => !isControl p.1)) := by
  by_cases hne : r.spanBuffer = []
  · unfold processText at h
    rw [if_pos hne, ok_ok] at h; subst h
    exact ⟨[], by simp [hne]⟩
  obtain ⟨calls, l, ss, e1, _, _, e2, _, e3, e4, _, e5⟩ := processText_calls h hne
  have ht := e2.text
  have hs : (calls.flatMap (·.2.spans)).flatMap TextSpan.styled = ss.flatMap TextSpan.styled := by
    rw [e4, ht]; simp [Layout.all]
  have hw : (r.spanBuffer.flatMap TextSpan.breakIntoWords).flatMap TextSpan.styled = r.spanBuffer.flatMap TextSpan.styled := by
    rw [List.flatMap_assoc]
    congr 1; funext s; exact words_styled s
  refine ⟨calls, e1, ?_, ?_, ?_⟩
  · intro x hx
    obtain ⟨_, f, l, off, h', _⟩ := e5 x hx
    exact ⟨_, _, _, _, h', by simp⟩
  · rw [hs, e3, filter_control, hw]
  · intro hc
    rw [hs, e3, ← hw, ← filter_control]
    symm
    rw [List.filter_eq_self]
    intro p hp
    obtain ⟨w, hw', hp⟩ := List.mem_flatMap.1 hp
    rw [List.mem_filter] at hw'
    obtain ⟨hw1, hw2⟩ := hw'
    obtain ⟨s, hs1, hs2⟩ := List.mem_flatMap.1 hw1
    obtain ⟨c, hc1, rfl⟩ := List.mem_map.1 hp
    have hcs : c ∈ s.text := by
      rw [← (C27_words s).1.lossless]
      exact List.mem_flatten.2 ⟨w.text, List.mem_map.2 ⟨w, hs2, rfl⟩, hc1⟩
    cases hctl : isControl c with
    | false => simp
    | true =>
      exfalso
      have e := hc s hs1 c hcs hctl
      have hww : w.text ∈ wordsLoop s.text [] := by
        unfold TextSpan.breakIntoWords at hs2
        obtain ⟨t, ht, rfl⟩ := List.mem_map.1 hs2
        exact ht
      have h10 : isWhitespace '\n' = true := by decide
      have h9 : isWhitespace '\t' = true := by decide
      rw [e] at hww
      simp only [isControl, Bool.or_eq_true, beq_iff_eq] at hctl
      rcases hctl with rfl | rfl
      · simp only [wordsLoop, h10, if_true, List.nil_append] at hww
        simp at hww
        simp [hww] at hw2
      · simp only [wordsLoop, h9, if_true, List.nil_append] at hww
        simp at hww
        simp [hww] at hw2

/-- C30. One flush lays the lines out from top to bottom: each line has its own `y`, with its spans next to one another from
left to right; each line lies below all of the lines before it; all of it lies between the old and the new pen position,
and the pen does not move up. -/
theorem C30_top_to_bottom (r r' : Recording) (h : processText recorder r = .ok r') :
    ∃ calls, r'.child = r.child ++ calls ∧
      (∀ x ∈ calls, ∃ y, LineAt x.2.spans y ∧ r.context.getY ≤ y ∧ y ≤ r'.context.getY) ∧
      (calls.map (·.2.spans)).Pairwise Below ∧ PenDown r.context r'.context := by
  by_cases hne : r.spanBuffer = []
  · unfold processText at h
    rw [if_pos hne, ok_ok] at h; subst h
    exact ⟨[], by simp, by simp, by simp, PenDown.refl _⟩
  obtain ⟨calls, l, ss, e1, hl, ec, e2, _, e3, e4, e5, e6⟩ := processText_calls h hne
  have hlaid : Laid r.context l := e2.laid ⟨PenDown.refl _, by simp, by simp, ⟨by simp, by simp⟩, by simp⟩
  refine ⟨calls, e1, ?_, ?_, ?_⟩
  · intro x hx
    have : x.2.spans ∈ l.all := by
      have : x.2.spans ∈ calls.map (·.2.spans) := List.mem_map.2 ⟨x, hx, rfl⟩
      rw [e5] at this
      exact (List.mem_filter.1 this).1
    rw [ec]
    simp only [Layout.all, List.mem_append, List.mem_singleton] at this
    rcases this with h' | h'
    · obtain ⟨y, a, b, c⟩ := hlaid.lines _ h'
      exact ⟨y, b, a, by omega⟩
    · rw [h']
      exact ⟨_, hlaid.current, hlaid.pen.getY, Nat.le_refl _⟩
  · rw [e5]
    apply List.Pairwise.filter
    unfold Layout.all
    rw [List.pairwise_append]
    refine ⟨hlaid.below, by simp, ?_⟩
    intro a ha b hb
    simp only [List.mem_singleton] at hb; subst hb
    obtain ⟨y, _, hy, hy'⟩ := hlaid.lines a ha
    intro s hs d hd t ht e he
    obtain ⟨d', e1, e2, _⟩ := hy.1 s hs
    obtain ⟨e', f1, f2, _⟩ := hlaid.current.1 t ht
    simp only [Option.mem_def] at hd he
    rw [e1] at hd; rw [f1] at he
    simp only [Option.some.injEq] at hd he
    subst hd; subst he
    rw [e2, f2]; exact hy'
  · rw [ec]; exact hlaid.pen

/-- C31. If the square of each character width is at most the print width, no span with any text extends past the print
area: it ends at most `width` to the right of the left edge. -/
theorem C31_inside_width (r r' : Recording) (h : processText recorder r = .ok r')
    (hcw : ∀ s ∈ r.spanBuffer, s.characterWidth * s.characterWidth ≤ r.context.getWidth) :
    ∃ calls, r'.child = r.child ++ calls ∧
      ∀ x ∈ calls, ∀ s ∈ x.2.spans, s.text ≠ [] → s.characterWidth ≠ 0 →
        ∃ d, s.dimensions = some d ∧ d.x + d.w ≤ r.context.baseX + r.context.getWidth := by
  by_cases hne : r.spanBuffer = []
  · unfold processText at h
    rw [if_pos hne, ok_ok] at h; subst h
    exact ⟨[], by simp, by simp⟩
  obtain ⟨calls, l, ss, e1, hl, ec, e2, hst, e3, e4, e5, e6⟩ := processText_calls h hne
  refine ⟨calls, e1, ?_⟩
  have key := e2.spans (c0 := r.context) (P := fun s => s.text ≠ [] → s.characterWidth ≠ 0 →
      ∃ d, s.dimensions = some d ∧ d.x + d.w ≤ r.context.baseX + r.context.getWidth) (PenDown.refl _) ?_ (by simp [Layout.all])
  · intro x hx s hs
    have : x.2.spans ∈ l.all := by
      have : x.2.spans ∈ calls.map (·.2.spans) := List.mem_map.2 ⟨x, hx, rfl⟩
      rw [e5] at this
      exact (List.mem_filter.1 this).1
    exact key _ this s hs
  · intro s hs c hc hp ht hw
    refine ⟨_, rfl, ?_⟩
    obtain ⟨w, hw1, hw2⟩ := hst s hs
    have hcw' := hcw w hw1
    have hcweq : s.characterWidth = w.characterWidth := by rw [hw2]
    rw [← hcweq] at hcw'
    dsimp only [TextSpan.at_] at ht hw ⊢
    have hpos : 0 < s.text.length * s.characterWidth :=
      Nat.mul_pos (List.length_pos_iff.2 ht) (Nat.pos_of_ne_zero hw)
    rcases hp with hp | ⟨hx, hlen⟩
    · have h1 := hc.baseX
      have h2 := hc.getWidth
      rw [← h1, ← h2]
      unfold Context.availableWidth at hp
      unfold Context.getX Context.baseX Context.getWidth
      split at hp
      · next hpm => simp only [hpm, if_true]; omega
      · next hpm =>
        simp only [hpm]
        split at hp <;> simp <;> omega
    · rw [hx, hc.baseX]
      rw [hc.getWidth] at hlen
      have : s.text.length * s.characterWidth ≤ r.context.getWidth := by
        refine Nat.le_trans (Nat.mul_le_mul_right _ hlen) ?_
        rcases Nat.le_total (r.context.getWidth / s.characterWidth) s.characterWidth with h' | h'
        · rw [Nat.max_eq_right h']; exact hcw'
        · rw [Nat.max_eq_left h']; exact Nat.div_mul_le_self _ _
      omega

/-- C69. Every line is handed over with its height (that of its tallest span), the justification of its first span, and
the offset that justifies it: none for left, half of the free width for centred, all of it for right. -/
theorem C69_justified (r r' : Recording) (h : processText recorder r = .ok r') :
    ∃ calls, r'.child = r.child ++ calls ∧
      ∀ x ∈ calls, ∃ f rest off, x.2 = .text (f :: rest) off (lineHeight (f :: rest)) f.justify ∧
        (∀ s ∈ f :: rest, s.characterHeight ≤ lineHeight (f :: rest)) ∧ (∃ s ∈ f :: rest, s.characterHeight = lineHeight (f :: rest)) ∧
        (let w := ((f :: rest).map (fun s => s.text.length * s.characterWidth)).sum
         let free := r.context.getWidth - w
         off = match f.justify with
           | .left => 0
           | .center => free / 2
           | .right => free) := by
  by_cases hne : r.spanBuffer = []
  · unfold processText at h
    rw [if_pos hne, ok_ok] at h; subst h
    exact ⟨[], by simp, by simp⟩
  obtain ⟨calls, l, ss, e1, hl, ec, e2, hst, e3, e4, e5, e6⟩ := processText_calls h hne
  refine ⟨calls, e1, ?_⟩
  intro x hx
  obtain ⟨_, f, rest, off, h1, w, h2, h3⟩ := e6 x hx
  have hfold : ∀ (l : List TextSpan) (a : Nat), a ≤ l.foldl (fun h s => max h s.characterHeight) a ∧
      (∀ s ∈ l, s.characterHeight ≤ l.foldl (fun h s => max h s.characterHeight) a) ∧
      (l.foldl (fun h s => max h s.characterHeight) a = a ∨ ∃ s ∈ l, s.characterHeight = l.foldl (fun h s => max h s.characterHeight) a) := by
    intro l
    induction l with
    | nil => intro a; simp
    | cons x xs ih =>
      intro a
      obtain ⟨i1, i2, i3⟩ := ih (max a x.characterHeight)
      simp only [List.foldl_cons]
      refine ⟨by omega, ?_, ?_⟩
      · intro s hs
        rcases List.mem_cons.1 hs with h | h
        · subst h; omega
        · exact i2 s h
      · rcases i3 with h | ⟨s, hs, h⟩
        · rcases Nat.le_total a x.characterHeight with h' | h'
          · right; exact ⟨x, by simp, by omega⟩
          · left; omega
        · right; exact ⟨s, by simp [hs], h⟩
  have hwid : ∀ (l : List TextSpan) (a b : Nat), lineWidth l a = .ok b → b = a + (l.map (fun s => s.text.length * s.characterWidth)).sum := by
    intro l
    induction l with
    | nil => intro a b h; simp only [lineWidth, ok_ok] at h; simp [h]
    | cons x xs ih =>
      intro a b h
      simp only [lineWidth, bind_ok, addU32_ok, TextSpan.getWidth, mulU32_ok, TextSpan.characterCount] at h
      obtain ⟨u, ⟨_, rfl⟩, v, ⟨_, rfl⟩, h⟩ := h
      rw [ih _ _ h, List.map_cons, List.sum_cons]
      omega
  refine ⟨f, rest, off, h1, ?_, ?_, ?_⟩
  · exact (hfold (f :: rest) 0).2.1
  · rcases (hfold (f :: rest) 0).2.2 with h0 | h0
    · refine ⟨f, by simp, ?_⟩
      have := (hfold (f :: rest) 0).2.1 f (by simp)
      unfold lineHeight
      omega
    · exact h0
  · have hw := hwid _ _ _ h2
    rw [ec] at h3
    have hpen : PenDown r.context l.context := PenDown.layoutWords hl
    rw [hpen.getWidth] at h3
    rw [Nat.zero_add] at hw
    rw [hw] at h3
    dsimp only
    cases hj : f.justify with
    | left => rw [hj] at h3; simp only [lineOffset, ok_ok] at h3; exact h3.symm
    | right => rw [hj] at h3; simp only [lineOffset, subU_ok] at h3; exact h3.2
    | center =>
      rw [hj] at h3; simp only [lineOffset, ok_ok] at h3
      rw [← h3]
      split
      · rfl
      · dsimp only; omega

/-- C29, C30, C31, C69, a concrete flush: two lines and a tab, the second line centred by its first span. -/
def layoutExample : Recording :=
  { child := []
    outputBuffer := []
    errorBuffer := []
    spanBuffer := [TextSpan.new "abc de".toList Context.new, TextSpan.new ['\n'] Context.new,
      { TextSpan.new "x".toList Context.new with justify := .center }, TextSpan.new ['\t'] Context.new,
      TextSpan.new (List.replicate 60 'y') Context.new]
    context := Context.new }

example : ∃ r', processText recorder layoutExample = .ok r' ∧
    r'.child.map (fun x => x.2.spans.map (fun s => (s.text.length, s.dimensions.map (fun d => (d.x, d.y, d.w))))) =
      [[(4, some (0, 60, 48)), (2, some (48, 60, 24))],
       [(1, some (0, 84, 12)), (42, some (96, 84, 504))], [(18, some (0, 108, 216))]] ∧
    (∀ s ∈ layoutExample.spanBuffer, s.characterWidth * s.characterWidth ≤ layoutExample.context.getWidth) ∧
    (∀ s ∈ layoutExample.spanBuffer, ∀ c ∈ s.text, isControl c → s.text = [c]) := by
  refine ⟨_, rfl, ?_⟩; decide +kernel

/-- C31 needs its hypothesis: characters 72 dots wide run past the paper, because at least as many
characters are put on a line as a character has dots. -/
theorem C31_needs_width : ∃ r' : Recording, processText recorder
      { layoutExample with spanBuffer := [{ TextSpan.new (List.replicate 30 'y') Context.new with characterWidth := 72 }] } = .ok r' ∧
    ∃ x ∈ r'.child, ∃ s ∈ x.2.spans, s.text ≠ [] ∧ ∃ d ∈ s.dimensions, d.x + d.w > layoutExample.context.baseX + layoutExample.context.getWidth := by
  refine ⟨_, rfl, ?_⟩; decide +kernel

end Thermal
