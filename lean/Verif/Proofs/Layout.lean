import Verif.Proofs.Pen
import Verif.Props.Text
import Verif.Spec.Layout
/-
The layout of text as a sequence of elementary steps.
-/
namespace Thermal

/-- Where a span is put: it fits in what is left of the line, or the line is empty and it is a part of a broken word. -/
def Placed (c : Context) (s : TextSpan) : Prop :=
  s.text.length * s.characterWidth ≤ c.availableWidth ∨
    (c.getX = c.baseX ∧ s.text.length ≤ max (c.getWidth / s.characterWidth) s.characterWidth)

/-- The span at the pen position. -/
def TextSpan.at_ (s : TextSpan) (c : Context) : TextSpan :=
  { s with dimensions := some ⟨c.getX, c.getY, s.text.length * s.characterWidth, s.characterHeight⟩ }

/-- The elementary steps of the layout; the list has the spans put on the lines, before they have a position. -/
inductive Steps : Layout → List TextSpan → Layout → Prop where
  | nil (l) : Steps l [] l
  | finish {l l1 l2 ss} (h : l.finishLine = .ok l1) (t : Steps l1 ss l2) : Steps l ss l2
  | blank {l l2 ss} (e : l.currentLine = []) (t : Steps { l with lines := l.lines ++ [[]] } ss l2) : Steps l ss l2
  | tab {l : Layout} {l2 ss x c} (hx : l.context.getX ≤ x) (h : l.context.setX x = .ok c)
      (t : Steps { l with context := c } ss l2) : Steps l ss l2
  | place {l : Layout} {l2 s ss c} (hp : Placed l.context s) (h : l.context.offsetX (s.text.length * s.characterWidth) = .ok c)
      (t : Steps { l with context := c, currentLine := l.currentLine ++ [s.at_ l.context] } ss l2) : Steps l (s :: ss) l2
  | placeEnd {l : Layout} {l1 l2 s ss} (hp : Placed l.context s)
      (h : ({ l with currentLine := l.currentLine ++ [s.at_ l.context] } : Layout).finishLine = .ok l1)
      (t : Steps l1 ss l2) : Steps l (s :: ss) l2

theorem Steps.append {a b c : Layout} {s t} (h : Steps a s b) (h' : Steps b t c) : Steps a (s ++ t) c := by
  induction h with
  | nil => exact h'
  | finish h _ ih => exact .finish h (ih h')
  | blank e _ ih => exact .blank e (ih h')
  | tab hx h _ ih => exact .tab hx h (ih h')
  | place hp h _ ih => exact .place hp h (ih h')
  | placeEnd hp h _ ih => exact .placeEnd hp h (ih h')

theorem getDimensions_ok {s s' : TextSpan} {c : Context} (h : s.getDimensions c = .ok s') :
    s' = s.at_ c ∧ s.text.length * s.characterWidth < U32 := by
  simp only [TextSpan.getDimensions, TextSpan.getWidth, bind_ok, mulU32_ok, pure_ok, TextSpan.characterCount] at h
  obtain ⟨w, ⟨h1, rfl⟩, rfl⟩ := h
  exact ⟨rfl, h1⟩

theorem PenDown.getWidth {c c' : Context} (h : PenDown c c') : c'.getWidth = c.getWidth := by
  obtain ⟨_, _, _, _, rfl, _, _⟩ := h; rfl

theorem PenDown.baseX {c c' : Context} (h : PenDown c c') : c'.baseX = c.baseX := by
  obtain ⟨_, _, _, _, rfl, _, _⟩ := h; rfl

theorem PenDown.getY {c c' : Context} (h : PenDown c c') : c.getY ≤ c'.getY := by
  obtain ⟨_, _, _, _, rfl, h1, h2⟩ := h
  simp only [Context.getY, Context.withPens]
  split <;> simp_all

theorem PenDown.lineSpacing {c c' : Context} (h : PenDown c c') : c'.text = c.text := by
  obtain ⟨_, _, _, _, rfl, h1, h2⟩ := h; rfl

theorem getX_putX (c : Context) (x : Nat) : (c.putX x).getX = x := by
  unfold Context.putX Context.getX; split <;> simp_all

theorem getY_putX (c : Context) (x : Nat) : (c.putX x).getY = c.getY := by
  unfold Context.putX Context.getY; split <;> simp_all

theorem getY_putY (c : Context) (y : Nat) : (c.putY y).getY = y := by
  unfold Context.putY Context.getY; split <;> simp_all

theorem getX_putY (c : Context) (y : Nat) : (c.putY y).getX = c.getX := by
  unfold Context.putY Context.getX; split <;> simp_all

theorem offsetX_ok {c c' : Context} {x : Nat} : c.offsetX x = .ok c' ↔ c.getX + x < U32 ∧ c' = c.putX (c.getX + x) := by
  simp only [Context.offsetX, bind_ok, addU32_ok, pure_ok]
  constructor
  · rintro ⟨_, ⟨h, rfl⟩, rfl⟩; exact ⟨h, rfl⟩
  · rintro ⟨h, rfl⟩; exact ⟨_, ⟨h, rfl⟩, rfl⟩

theorem offsetY_ok {c c' : Context} {x : Nat} : c.offsetY x = .ok c' ↔ c.getY + x < U32 ∧ c' = c.putY (c.getY + x) := by
  simp only [Context.offsetY, bind_ok, addU32_ok, pure_ok]
  constructor
  · rintro ⟨_, ⟨h, rfl⟩, rfl⟩; exact ⟨h, rfl⟩
  · rintro ⟨h, rfl⟩; exact ⟨_, ⟨h, rfl⟩, rfl⟩

theorem newlineForSpans_ok {c c' : Context} {l : List TextSpan} (h : c.newlineForSpans l = .ok c') :
    c'.getX = c.baseX ∧ c'.getY = c.getY + l.foldl (fun h s => max h s.characterHeight) c.text.lineSpacing.toNat := by
  unfold Context.newlineForSpans at h
  rw [offsetY_ok] at h
  obtain ⟨_, rfl⟩ := h
  refine ⟨?_, ?_⟩
  · rw [getX_putY]; exact getX_putX _ _
  · rw [getY_putY]; simp only [Context.resetX, getY_putX]

theorem finishLine_ok {l l' : Layout} (h : l.finishLine = .ok l') :
    l'.lines = l.lines ++ [l.currentLine] ∧ l'.currentLine = [] ∧ l'.context.getX = l.context.baseX ∧
    l'.context.getY = l.context.getY + l.currentLine.foldl (fun h s => max h s.characterHeight) l.context.text.lineSpacing.toNat := by
  simp only [Layout.finishLine, bind_ok, pure_ok] at h
  obtain ⟨c, h1, rfl⟩ := h
  exact ⟨rfl, rfl, newlineForSpans_ok h1⟩

theorem tabStop_ge {cw x : Nat} {ts : List Byte} {p q : Nat} (h : tabStop cw x ts p = .ok (some q)) : x ≤ q := by
  induction ts generalizing p with
  | nil => simp [tabStop] at h
  | cons t ts ih =>
    unfold tabStop at h
    split at h
    · simp only [ok_ok, Option.some.injEq] at h; subst h; assumption
    · simp only [bind_ok] at h
      obtain ⟨_, _, _, _, h⟩ := h
      exact ih h

/-- The parts of a broken word that start a line. -/
theorem layoutBroken_steps {bs : List TextSpan} {l l' : Layout} (h : layoutBroken bs l = .ok l')
    (h0 : ∀ b ∈ bs.head?, Placed l.context b)
    (h1 : ∀ b ∈ bs.tail, b.text.length ≤ max (l.context.getWidth / b.characterWidth) b.characterWidth) : Steps l bs l' := by
  induction bs generalizing l with
  | nil => simp only [layoutBroken, ok_ok] at h; subst h; exact .nil _
  | cons b rest ih =>
    have hb := h0 b (by simp)
    cases rest with
    | nil =>
      simp only [layoutBroken, bind_ok, pure_ok] at h
      obtain ⟨b', h2, w, h3, c, h4, rfl⟩ := h
      obtain ⟨rfl, h5⟩ := getDimensions_ok h2
      simp only [TextSpan.getWidth, mulU32_ok] at h3
      obtain ⟨h3, rfl⟩ := h3
      exact .place hb h4 (.nil _)
    | cons b2 rest =>
      simp only [layoutBroken, bind_ok] at h
      obtain ⟨b', h2, l1, h3, h4⟩ := h
      obtain ⟨rfl, h5⟩ := getDimensions_ok h2
      refine .placeEnd hb h3 ?_
      have hp : PenDown l.context l1.context := by have := PenDown.finishLine h3; exact this
      apply ih h4
      · intro b' hb'
        simp only [List.head?_cons, Option.mem_def, Option.some.injEq] at hb'; subst hb'
        right
        refine ⟨?_, ?_⟩
        · rw [hp.baseX]; exact (finishLine_ok h3).2.2.1
        · rw [hp.getWidth]; exact h1 _ (by simp)
      · intro b' hb'
        rw [hp.getWidth]; exact h1 _ (by simp_all)

/-- One word. -/
theorem layoutWord_steps {m : Nat} {l l' : Layout} {w : TextSpan} (h : layoutWord m l w = .ok l') (hm : l.context.getWidth = m) :
    ∃ ss, Steps l ss l' ∧ (∀ s ∈ ss, SameStyle w s) ∧
      (ss.map (·.text)).flatten = if w.text = ['\n'] ∨ w.text = ['\t'] then [] else w.text := by
  simp only [Thermal.layoutWord, bind_ok] at h
  obtain ⟨ww, hw, h⟩ := h
  simp only [TextSpan.getWidth, mulU32_ok, TextSpan.characterCount] at hw
  obtain ⟨hw, rfl⟩ := hw
  have hone : ∀ {l1 l2 : Layout} {c}, Placed l1.context w → l1.context.offsetX (w.text.length * w.characterWidth) = .ok c →
      l2 = { l1 with context := c, currentLine := l1.currentLine ++ [w.at_ l1.context] } →
      Steps l1 [{ w with dimensions := none }] l2 := by
    rintro l1 _ c h1 h2 rfl
    have : ({ w with dimensions := none } : TextSpan).at_ l1.context = w.at_ l1.context := rfl
    rw [← this]
    exact .place (s := { w with dimensions := none }) h1 h2 (.nil _)
  split at h
  · next ht =>
    simp only [bind_ok, pure_ok] at h
    obtain ⟨l1, h1, rfl⟩ := h
    refine ⟨[], .finish h1 (.blank (finishLine_ok h1).2.1 (.nil _)), by simp, by simp [ht]⟩
  split at h
  · next ht =>
    simp only [bind_ok] at h
    obtain ⟨o, ho, h⟩ := h
    split at h
    · simp only [bind_ok, pure_ok] at h
      obtain ⟨c, h1, rfl⟩ := h
      exact ⟨[], .tab (tabStop_ge ho) h1 (.nil _), by simp, by simp [ht]⟩
    · rw [pure_ok] at h; subst h; exact ⟨[], .nil _, by simp, by simp [ht]⟩
  split at h
  · next hn ht hle =>
    simp only [bind_ok, pure_ok] at h
    obtain ⟨w', h2, c, h1, rfl⟩ := h
    obtain ⟨rfl, _⟩ := getDimensions_ok h2
    exact ⟨_, hone (.inl hle) h1 rfl, by simp [SameStyle], by simp [hn, ht]⟩
  split at h
  · next hn ht hle hgt =>
    simp only [bind_ok, divU_ok] at h
    obtain ⟨f, ⟨hcw, rfl⟩, k, ⟨_, rfl⟩, bs, hb, h⟩ := h
    have h28 := C28_break_apart w (l.context.availableWidth / w.characterWidth) (max (m / w.characterWidth) w.characterWidth)
    obtain ⟨a, rest, e, h3, h4, h5, _, h6⟩ := h28.2 (by omega)
    rw [e, ok_ok] at hb
    subst hb
    have hcws : ∀ b ∈ a :: rest, b.characterWidth = w.characterWidth := by
      intro b hb; rw [h6 b hb]
    refine ⟨a :: rest, layoutBroken_steps h ?_ ?_, h6, ?_⟩
    · intro b hb
      simp only [List.head?_cons, Option.mem_def, Option.some.injEq] at hb; subst hb
      left
      rw [hcws _ (by simp), h4]
      exact Nat.le_trans (Nat.mul_le_mul_right _ (Nat.min_le_left _ _)) (Nat.div_mul_le_self _ _)
    · intro b hb
      rw [hcws b (by simp_all), hm]; exact (h5 b (by simpa using hb)).2
    · rw [List.map_cons, List.flatten_cons, h3]; simp [hn, ht]
  · next hn ht hle hgt =>
    simp only [bind_ok, pure_ok] at h
    obtain ⟨l1, h1, w', h2, c, h3, rfl⟩ := h
    obtain ⟨rfl, _⟩ := getDimensions_ok h2
    have hp := PenDown.finishLine h1
    refine ⟨_, .finish h1 (hone (.inl ?_) h3 rfl), by simp [SameStyle], by simp [hn, ht]⟩
    have hx := (finishLine_ok h1).2.2.1
    rw [← hp.baseX] at hx
    have hw' := hp.getWidth
    have : l1.context.availableWidth = l1.context.getWidth := by
      unfold Context.availableWidth Context.getWidth
      unfold Context.getX Context.baseX at hx
      split
      · next hpm => rw [if_pos hpm, if_pos hpm] at hx; rw [hx]; simp
      · next hpm => rw [if_neg hpm, if_neg hpm] at hx; rw [hx]; simp
    omega

theorem layoutWords_steps {m : Nat} {ws : List TextSpan} {l l' : Layout} (h : layoutWords m ws l = .ok l') (hm : l.context.getWidth = m) :
    ∃ ss, Steps l ss l' ∧ (∀ s ∈ ss, ∃ w ∈ ws, SameStyle w s) ∧
      ss.flatMap TextSpan.styled = (ws.filter (fun w => !(w.text == ['\n'] || w.text == ['\t']))).flatMap TextSpan.styled := by
  induction ws generalizing l with
  | nil => simp only [layoutWords, ok_ok] at h; subst h; exact ⟨[], .nil _, by simp, rfl⟩
  | cons w ws ih =>
    simp only [layoutWords, bind_ok] at h
    obtain ⟨l1, h1, h2⟩ := h
    obtain ⟨s1, a1, b1, c1⟩ := layoutWord_steps h1 hm
    have hp := PenDown.layoutWord h1
    obtain ⟨s2, a2, b2, c2⟩ := ih h2 (by rw [hp.getWidth]; exact hm)
    refine ⟨s1 ++ s2, a1.append a2, ?_, ?_⟩
    · intro s hs
      rcases List.mem_append.1 hs with h | h
      · exact ⟨w, by simp, b1 s h⟩
      · obtain ⟨w', hw', h'⟩ := b2 s h; exact ⟨w', by simp [hw'], h'⟩
    · have key : s1.flatMap TextSpan.styled = (s1.map (·.text)).flatten.map (fun c => (c, { w with text := [], dimensions := none })) := by
        clear c1 a1
        induction s1 with
        | nil => rfl
        | cons x xs ih =>
          rw [List.flatMap_cons, ih (fun s hs => b1 s (by simp [hs])), List.map_cons, List.flatten_cons, List.map_append]
          congr 1
          have := b1 x (by simp)
          unfold TextSpan.styled
          rw [this]
      rw [List.flatMap_append, c2, key, c1, List.filter_cons]
      by_cases hc : w.text = ['\n'] ∨ w.text = ['\t']
      · have : (w.text == ['\n'] || w.text == ['\t']) = true := by simpa using hc
        simp [if_pos hc, this]
      · have : (w.text == ['\n'] || w.text == ['\t']) = false := by simpa using hc
        simp [if_neg hc, this, TextSpan.styled]

/-! ### What the steps do -/

/-- The lines as they will be rendered. -/
def Layout.all (l : Layout) : List (List TextSpan) := l.lines ++ [l.currentLine]

theorem at_styled (s : TextSpan) (c : Context) : (s.at_ c).styled = s.styled := rfl

theorem Steps.text {l l' : Layout} {ss} (h : Steps l ss l') :
    l'.all.flatten.flatMap TextSpan.styled = l.all.flatten.flatMap TextSpan.styled ++ ss.flatMap TextSpan.styled := by
  induction h with
  | nil => simp
  | finish h _ ih =>
    rw [ih]; congr 2
    have ⟨h1, h2, _⟩ := finishLine_ok h
    simp [Layout.all, h1, h2]
  | blank e _ ih => rw [ih]; congr 2; simp [Layout.all, e]
  | tab hx h _ ih => rw [ih]; rfl
  | place hp h _ ih => rw [ih]; simp [Layout.all, at_styled]
  | placeEnd hp h _ ih =>
    rw [ih]
    have ⟨h1, h2, _⟩ := finishLine_ok h
    dsimp only at h1
    simp [Layout.all, h1, h2, at_styled]

/-- The invariant of the layout: the lines so far lie below one another, between the start and the pen, the current line
ends at the pen. -/
structure Laid (c0 : Context) (l : Layout) : Prop where
  pen : PenDown c0 l.context
  lines : ∀ line ∈ l.lines, ∃ y, c0.getY ≤ y ∧ LineAt line y ∧ y + lineHeight line ≤ l.context.getY
  below : l.lines.Pairwise Below
  current : LineAt l.currentLine l.context.getY
  ends : ∀ s ∈ l.currentLine, ∀ d ∈ s.dimensions, d.x + d.w ≤ l.context.getX

theorem LineAt.snoc {line : List TextSpan} {c : Context} {s : TextSpan} (h : LineAt line c.getY)
    (he : ∀ s ∈ line, ∀ d ∈ s.dimensions, d.x + d.w ≤ c.getX) : LineAt (line ++ [s.at_ c]) c.getY := by
  refine ⟨?_, ?_⟩
  · intro t ht
    rcases List.mem_append.1 ht with h' | h'
    · exact h.1 t h'
    · simp only [List.mem_singleton] at h'; subst h'
      exact ⟨_, rfl, rfl, rfl, rfl⟩
  · rw [List.pairwise_append]
    refine ⟨h.2, by simp, ?_⟩
    intro a ha b hb da hda db hdb
    simp only [List.mem_singleton] at hb; subst hb
    simp only [TextSpan.at_, Option.mem_def, Option.some.injEq] at hdb; subst hdb
    exact he a ha da hda

theorem le_foldl_max (l : List TextSpan) : ∀ a b : Nat, a ≤ b →
    l.foldl (fun h s => max h s.characterHeight) a ≤ l.foldl (fun h s => max h s.characterHeight) b := by
  induction l with
  | nil => intro a b h; exact h
  | cons x xs ih => intro a b h; exact ih _ _ (by dsimp only; omega)

theorem Laid.finish {c0 : Context} {l l' : Layout} (h : Laid c0 { l with currentLine := [] }) (hc : LineAt l.currentLine l.context.getY)
    (hf : l.finishLine = .ok l') : Laid c0 l' := by
  have ⟨h1, h2, h3, h4⟩ := finishLine_ok hf
  have hp := PenDown.finishLine hf
  have hge := hp.getY
  refine ⟨h.pen.trans hp, ?_, ?_, ?_, ?_⟩
  · rw [h1]
    intro line hl
    rcases List.mem_append.1 hl with h' | h'
    · obtain ⟨y, a, b, c⟩ := h.lines line h'
      exact ⟨y, a, b, Nat.le_trans c hge⟩
    · simp only [List.mem_singleton] at h'; subst h'
      refine ⟨_, h.pen.getY, hc, ?_⟩
      rw [h4]
      have := le_foldl_max l.currentLine 0 l.context.text.lineSpacing.toNat (by omega)
      unfold lineHeight
      dsimp only
      omega
  · rw [h1, List.pairwise_append]
    refine ⟨h.below, by simp, ?_⟩
    intro a ha b hb
    simp only [List.mem_singleton] at hb; subst hb
    obtain ⟨y, _, hy, hy'⟩ := h.lines a ha
    intro s hs d hd t ht e he
    obtain ⟨d', e1, e2, _⟩ := hy.1 s hs
    obtain ⟨e', f1, f2, _⟩ := hc.1 t ht
    simp only [Option.mem_def] at hd he
    rw [e1] at hd; rw [f1] at he
    simp only [Option.some.injEq] at hd he
    subst hd; subst he
    rw [e2, f2]; exact hy'
  · rw [h2]; exact ⟨by simp, by simp⟩
  · rw [h2]; simp

theorem Steps.laid {c0 : Context} {l l' : Layout} {ss} (h : Steps l ss l') (hl : Laid c0 l) : Laid c0 l' := by
  induction h with
  | nil => exact hl
  | @finish l _ _ _ h _ ih =>
    exact ih (Laid.finish ⟨hl.pen, hl.lines, hl.below, ⟨by simp, by simp⟩, by simp⟩ hl.current h)
  | @blank l _ _ e _ ih =>
    refine ih ⟨hl.pen, ?_, ?_, hl.current, hl.ends⟩
    · intro line h'
      rcases List.mem_append.1 h' with h' | h'
      · exact hl.lines line h'
      · simp only [List.mem_singleton] at h'; subst h'
        exact ⟨_, hl.pen.getY, ⟨by simp, by simp⟩, by simp [lineHeight]⟩
    · dsimp only
      rw [List.pairwise_append]
      refine ⟨hl.below, by simp, ?_⟩
      intro a _ b hb
      simp only [List.mem_singleton] at hb; subst hb
      intro s _ d _ t ht; simp at ht
  | @tab l _ _ x c hx h _ ih =>
    have hp := PenDown.setX h
    have hxy : c.getX ≥ l.context.getX ∧ c.getY = l.context.getY := by
      unfold Context.setX at h
      split at h
      · next hpm =>
        simp only [bind_ok, pure_ok, PageModeContext.setX, addU32_ok] at h
        obtain ⟨_, ⟨v, ⟨_, rfl⟩, rfl⟩, rfl⟩ := h
        simp only [Context.getX, Context.getY, hpm, if_true] at hx ⊢
        exact ⟨by omega, trivial⟩
      · rw [pure_ok] at h; subst h
        rw [getX_putX, getY_putX]; exact ⟨hx, rfl⟩
    refine ih ⟨hl.pen.trans hp, ?_, hl.below, ?_, ?_⟩
    · intro line h'
      obtain ⟨y, a, b, c'⟩ := hl.lines line h'
      exact ⟨y, a, b, by dsimp only; omega⟩
    · dsimp only; rw [hxy.2]; exact hl.current
    · intro s hs d hd
      have := hl.ends s hs d hd
      dsimp only; omega
  | @place l _ s _ c hp h _ ih =>
    have hd := PenDown.offsetX h
    rw [offsetX_ok] at h
    obtain ⟨_, rfl⟩ := h
    refine ih ⟨hl.pen.trans hd, ?_, hl.below, ?_, ?_⟩
    · intro line h'
      obtain ⟨y, a, b, c'⟩ := hl.lines line h'
      exact ⟨y, a, b, by dsimp only; rw [getY_putX]; exact c'⟩
    · dsimp only; rw [getY_putX]; exact hl.current.snoc hl.ends
    · dsimp only; rw [getX_putX]
      intro t ht d hd
      rcases List.mem_append.1 ht with h' | h'
      · have := hl.ends t h' d hd; omega
      · simp only [List.mem_singleton] at h'; subst h'
        simp only [TextSpan.at_, Option.mem_def, Option.some.injEq] at hd; subst hd
        exact Nat.le_refl _
  | @placeEnd l _ _ s _ hp h _ ih =>
    exact ih (Laid.finish (l := { l with currentLine := l.currentLine ++ [s.at_ l.context] })
      ⟨hl.pen, hl.lines, hl.below, ⟨by simp, by simp⟩, by simp⟩ (hl.current.snoc hl.ends) h)

/-- Every span put on a line keeps a property that holds for each span where it is put. -/
theorem Steps.spans {P : TextSpan → Prop} {c0 : Context} {l l' : Layout} {ss} (h : Steps l ss l') (hd : PenDown c0 l.context)
    (hP : ∀ s ∈ ss, ∀ c, PenDown c0 c → Placed c s → P (s.at_ c))
    (hl : ∀ line ∈ l.all, ∀ s ∈ line, P s) : ∀ line ∈ l'.all, ∀ s ∈ line, P s := by
  induction h with
  | nil => exact hl
  | finish h _ ih =>
    have ⟨h1, h2, _⟩ := finishLine_ok h
    refine ih (hd.trans (PenDown.finishLine h)) hP ?_
    intro line hline
    simp only [Layout.all, h1, h2, List.mem_append, List.mem_singleton] at hline
    rcases hline with (h' | h') | h'
    · exact hl line (by simp [Layout.all, h'])
    · exact hl line (by simp [Layout.all, h'])
    · subst h'; simp
  | blank e _ ih =>
    refine ih hd hP ?_
    intro line hline
    simp only [Layout.all, List.mem_append, List.mem_singleton] at hline
    rcases hline with (h' | h') | h'
    · exact hl line (by simp [Layout.all, h'])
    · subst h'; simp
    · exact hl line (by simp [Layout.all, h'])
  | tab hx h _ ih => exact ih (hd.trans (PenDown.setX h)) hP hl
  | @place l _ s _ c hp h _ ih =>
    refine ih (hd.trans (PenDown.offsetX h)) (fun s hs => hP s (by simp [hs])) ?_
    intro line hline
    simp only [Layout.all, List.mem_append, List.mem_singleton] at hline
    rcases hline with h' | h'
    · exact hl line (by simp [Layout.all, h'])
    · subst h'
      intro t ht
      rcases List.mem_append.1 ht with h'' | h''
      · exact hl l.currentLine (by simp [Layout.all]) t h''
      · simp only [List.mem_singleton] at h''; subst h''
        exact hP s (by simp) _ hd hp
  | @placeEnd l _ _ s _ hp h _ ih =>
    have ⟨h1, h2, _⟩ := finishLine_ok h
    have hd' := PenDown.finishLine h
    dsimp only at hd'
    refine ih (hd.trans hd') (fun s hs => hP s (by simp [hs])) ?_
    intro line hline
    simp only [Layout.all, h1, h2, List.mem_append, List.mem_singleton] at hline
    rcases hline with (h' | h') | h'
    · exact hl line (by simp [Layout.all, h'])
    · subst h'
      intro t ht
      rcases List.mem_append.1 ht with h'' | h''
      · exact hl l.currentLine (by simp [Layout.all]) t h''
      · simp only [List.mem_singleton] at h''; subst h''
        exact hP s (by simp) _ hd hp
    · subst h'; simp

end Thermal
