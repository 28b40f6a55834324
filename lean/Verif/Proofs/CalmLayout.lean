import Verif.Proofs.Layout
import Verif.Props.Drawing
/-
Laying out text does not panic, as long as the pen stays below 2^32.
-/
namespace Thermal

/-- Pens that are not far away: `b` bounds how far down they are.  With `n` right-justified text is possible, but not page mode. -/
structure Lane (n : Bool) (b : Nat) (c : Context) : Prop where
  mode : n = true → c.pageMode.enabled = false
  width : c.graphics.renderArea.w = 609
  pageWidth : c.pageMode.renderArea.w ≤ 131072
  pageBase : c.pageMode.pageArea.x ≤ 131072
  tabs : c.text.tabs.length = 32
  x : c.graphics.renderArea.x ≤ 1048576
  y : c.graphics.renderArea.y ≤ b
  pageX : c.pageMode.renderArea.x ≤ 1048576
  pageY : c.pageMode.renderArea.y ≤ b

/-- A piece of text that can be laid out. -/
structure CalmSpan (n : Bool) (t : TextSpan) : Prop where
  pos : 0 < t.characterWidth
  width : t.characterWidth ≤ 96
  height : t.characterHeight ≤ 192
  right : t.justify = .right → n = true ∧ t.characterWidth ≤ 24
  strike : t.strikethrough ≤ 255

/-- The width of a piece of text. -/
def spanW (t : TextSpan) : Nat := t.text.length * t.characterWidth

/-- The width of a line. -/
def lineW (l : List TextSpan) : Nat := (l.map spanW).sum

/-- A line that can be handed over. -/
structure CalmLine (n : Bool) (l : List TextSpan) : Prop where
  spans : ∀ t ∈ l, CalmSpan n t
  width : lineW l ≤ 1048576
  right : ∀ f rest, l = f :: rest → f.justify = .right → lineW l ≤ 609
  placed : ∀ t ∈ l, ∃ d, t.dimensions = some d ∧ d.x ≤ 1048576

namespace Lane
variable {n : Bool} {b : Nat} {c : Context}

theorem xle (h : Lane n b c) : c.getX ≤ 1048576 := by
  unfold Context.getX; split
  · exact h.pageX
  · exact h.x
theorem yle (h : Lane n b c) : c.getY ≤ b := by
  unfold Context.getY; split
  · exact h.pageY
  · exact h.y
theorem getWidth (h : Lane n b c) : c.getWidth ≤ 131072 := by
  unfold Context.getWidth; split
  · exact h.pageWidth
  · rw [h.width]; decide
theorem getWidth_narrow (h : Lane n b c) (hn : n = true) : c.getWidth = 609 := by
  simp [Context.getWidth, h.mode hn, h.width]
theorem baseX (h : Lane n b c) : c.baseX ≤ 131072 := by
  unfold Context.baseX; split
  · exact h.pageBase
  · decide
theorem baseX_narrow (h : Lane n b c) (hn : n = true) : c.baseX = 0 := by
  simp [Context.baseX, h.mode hn]

theorem avail (h : Lane n b c) : c.availableWidth = c.getWidth - (c.getX - c.baseX) := by
  unfold Context.availableWidth Context.getWidth Context.getX Context.baseX
  split
  · rfl
  · split <;> omega

theorem fits (h : Lane n b c) {s} (hs : s ≤ c.availableWidth) : c.getX + s ≤ 1048576 := by
  rw [h.avail] at hs
  have := h.xle
  have := h.getWidth
  have := h.baseX
  omega

theorem putX (h : Lane n b c) {x} (hx : x ≤ 1048576) : Lane n b (c.putX x) := by
  unfold Context.putX
  split
  · exact ⟨h.mode, h.width, h.pageWidth, h.pageBase, h.tabs, h.x, h.y, hx, h.pageY⟩
  · exact ⟨h.mode, h.width, h.pageWidth, h.pageBase, h.tabs, hx, h.y, h.pageX, h.pageY⟩

theorem putY {b'} (h : Lane n b c) (hb : b ≤ b') {y} (hy : y ≤ b') : Lane n b' (c.putY y) := by
  unfold Context.putY
  split
  · exact ⟨h.mode, h.width, h.pageWidth, h.pageBase, h.tabs, h.x, Nat.le_trans h.y hb, h.pageX, hy⟩
  · exact ⟨h.mode, h.width, h.pageWidth, h.pageBase, h.tabs, h.x, hy, h.pageX, Nat.le_trans h.pageY hb⟩

theorem mono {b'} (h : Lane n b c) (hb : b ≤ b') : Lane n b' c :=
  ⟨h.mode, h.width, h.pageWidth, h.pageBase, h.tabs, h.x, Nat.le_trans h.y hb, h.pageX, Nat.le_trans h.pageY hb⟩

theorem offsetX (h : Lane n b c) {w} (hw : c.getX + w ≤ 1048576) :
    ∃ c', c.offsetX w = .ok c' ∧ Lane n b c' ∧ c'.getX = c.getX + w := by
  refine ⟨_, offsetX_ok.2 ⟨by simp only [U32]; omega, rfl⟩, h.putX hw, ?_⟩
  rw [getX_putX]

theorem offsetY (h : Lane n b c) {w} (hw : b + w < U32) :
    ∃ c', c.offsetY w = .ok c' ∧ Lane n (b + w) c' ∧ c'.getX = c.getX := by
  have := h.yle
  refine ⟨_, offsetY_ok.2 ⟨by omega, rfl⟩, h.putY (by omega) (by omega), ?_⟩
  rw [getX_putY]

theorem setX (h : Lane n b c) {x} (hx : x ≤ 917504) : ∃ c', c.setX x = .ok c' ∧ Lane n b c' ∧ x ≤ c'.getX := by
  have hb := h.pageBase
  unfold Context.setX
  split
  · rename_i hm
    have e : addU32 c.pageMode.pageArea.x x = .ok (c.pageMode.pageArea.x + x) := addU32_ok.2 ⟨by simp only [U32]; omega, rfl⟩
    refine ⟨{ c with pageMode := { c.pageMode with renderArea := { c.pageMode.renderArea with x := c.pageMode.pageArea.x + x } } }, ?_, ?_, ?_⟩
    · simp only [PageModeContext.setX, e]; rfl
    · exact ⟨h.mode, h.width, h.pageWidth, h.pageBase, h.tabs, h.x, h.y, (by omega : c.pageMode.pageArea.x + x ≤ 1048576), h.pageY⟩
    · simp only [Context.getX, hm, if_true]; omega
  · exact ⟨_, rfl, h.putX (by omega), Nat.le_of_eq (getX_putX _ _).symm⟩

theorem resetX (h : Lane n b c) : Lane n b c.resetX ∧ c.resetX.getX = c.baseX := by
  have := h.baseX
  refine ⟨h.putX (by omega), ?_⟩
  rw [Context.resetX, getX_putX]

end Lane

theorem foldl_height {l : List TextSpan} {a : Nat} (ha : a ≤ 255) (hl : ∀ t ∈ l, t.characterHeight ≤ 192) :
    l.foldl (fun h s => max h s.characterHeight) a ≤ 255 := by
  induction l generalizing a with
  | nil => exact ha
  | cons t l ih =>
    simp only [List.foldl_cons]
    have := hl t (by simp)
    exact ih (by omega) (fun s hs => hl s (by simp [hs]))

theorem CalmSpan.clone {n} {t : TextSpan} (h : CalmSpan n t) (s : Str) : CalmSpan n (t.cloneWith s) := ⟨h.pos, h.width, h.height, h.right, h.strike⟩
theorem CalmSpan.at_ {n} {t : TextSpan} (h : CalmSpan n t) (c : Context) : CalmSpan n (t.at_ c) := ⟨h.pos, h.width, h.height, h.right, h.strike⟩

theorem spanW_at (t : TextSpan) (c : Context) : spanW (t.at_ c) = spanW t := rfl

theorem lineW_snoc (l : List TextSpan) (t : TextSpan) : lineW (l ++ [t]) = lineW l + spanW t := by
  simp [lineW]

theorem getWidth_total {t : TextSpan} (h : spanW t < U32) : t.getWidth = .ok (spanW t) := mulU32_ok.2 ⟨h, rfl⟩

theorem getDimensions_total {t : TextSpan} {c : Context} (h : spanW t < U32) : t.getDimensions c = .ok (t.at_ c) := by
  simp only [TextSpan.getDimensions, getWidth_total h]
  rfl

/-- At the start of a line. -/
def Start (c : Context) : Prop := c.getX ≤ 131072

/-- A layout in progress. -/
structure CalmLay (n : Bool) (b : Nat) (l : Layout) : Prop where
  lane : Lane n b l.context
  lines : ∀ x ∈ l.lines, CalmLine n x
  current : CalmLine n l.currentLine
  sum : lineW l.currentLine ≤ l.context.getX

namespace CalmLay
variable {n : Bool}

theorem emptyLine : CalmLine n [] := ⟨by simp, by simp [lineW], (by intro f rest h; cases h), by simp⟩

theorem mono {b b'} {l : Layout} (h : CalmLay n b l) (hb : b ≤ b') : CalmLay n b' l := ⟨h.lane.mono hb, h.lines, h.current, h.sum⟩

theorem finish' {b} {l : Layout} (hl : Lane n b l.context) (h1 : ∀ x ∈ l.lines, CalmLine n x) (h2 : CalmLine n l.currentLine) (hb : b + 255 < U32) :
    ∃ l', l.finishLine = .ok l' ∧ CalmLay n (b + 255) l' ∧ l'.currentLine = [] ∧ Start l'.context := by
  have hh := foldl_height (l := l.currentLine) (a := l.context.text.lineSpacing.toNat) (by have := l.context.text.lineSpacing.toNat_lt; omega)
    (fun t ht => (h2.spans t ht).height)
  obtain ⟨c, e1, e2, e3⟩ := hl.resetX.1.offsetY (w := l.currentLine.foldl (fun h s => max h s.characterHeight) l.context.text.lineSpacing.toNat)
    (by omega)
  have e3 : Start c := by unfold Start; rw [e3, hl.resetX.2]; exact hl.baseX
  refine ⟨⟨c, l.lines ++ [l.currentLine], []⟩, ?_, ⟨e2.mono (by omega), ?_, emptyLine, by simp [lineW]⟩, rfl, e3⟩
  · simp only [Layout.finishLine, Context.newlineForSpans]
    rw [e1]; rfl
  · intro x hx
    rcases List.mem_append.1 hx with hx | hx
    · exact h1 x hx
    · rw [List.mem_singleton.1 hx]; exact h2

theorem finish {b} {l : Layout} (h : CalmLay n b l) (hb : b + 255 < U32) :
    ∃ l', l.finishLine = .ok l' ∧ CalmLay n (b + 255) l' ∧ l'.currentLine = [] ∧ Start l'.context :=
  finish' h.lane h.lines h.current hb

/-- A piece that fits on the line. -/
theorem line_snoc {b} {l : Layout} (h : CalmLay n b l) {t : TextSpan} (ht : CalmSpan n t) (hp : ∃ d, t.dimensions = some d ∧ d.x ≤ 1048576) (hw : spanW t ≤ l.context.availableWidth) :
    CalmLine n (l.currentLine ++ [t]) ∧ l.context.getX + spanW t ≤ 1048576 := by
  have hx := h.lane.fits hw
  have hs := h.sum
  refine ⟨⟨?_, ?_, ?_, ?_⟩, hx⟩
  rotate_right 1
  · intro s hm
    rcases List.mem_append.1 hm with hm | hm
    · exact h.current.placed s hm
    · rw [List.mem_singleton.1 hm]; exact hp
  · intro s hm
    rcases List.mem_append.1 hm with hm | hm
    · exact h.current.spans s hm
    · rw [List.mem_singleton.1 hm]; exact ht
  · rw [lineW_snoc]; omega
  · intro f rest e hr
    rw [lineW_snoc]
    by_cases h0 : spanW t = 0
    · rcases hc : l.currentLine with _ | ⟨g, rest'⟩
      · simp [lineW, h0]
      · rw [hc] at e
        simp only [List.cons_append, List.cons.injEq] at e
        have := h.current.right g rest' hc (e.1 ▸ hr)
        rw [hc] at this; omega
    · have hn : n = true := by
        rcases hc : l.currentLine with _ | ⟨g, rest'⟩
        · rw [hc] at e; simp only [List.nil_append, List.cons.injEq] at e
          exact (ht.right (e.1 ▸ hr)).1
        · rw [hc] at e; simp only [List.cons_append, List.cons.injEq] at e
          exact ((h.current.spans g (by rw [hc]; simp)).right (e.1 ▸ hr)).1
      have h1 := h.lane.avail
      rw [h.lane.getWidth_narrow hn, h.lane.baseX_narrow hn] at h1
      omega

theorem put {b} {l : Layout} (h : CalmLay n b l) {t : TextSpan} (ht : CalmSpan n t) (hw : spanW t ≤ l.context.availableWidth) :
    ∃ c, l.context.offsetX (spanW t) = .ok c ∧ CalmLay n b ⟨c, l.lines, l.currentLine ++ [t.at_ l.context]⟩ := by
  obtain ⟨a1, a2⟩ := h.line_snoc (ht.at_ l.context) ⟨_, rfl, h.lane.xle⟩ hw
  obtain ⟨c, e1, e2, e3⟩ := h.lane.offsetX a2
  refine ⟨c, e1, e2, h.lines, a1, ?_⟩
  rw [lineW_snoc, e3, spanW_at]
  have := h.sum
  omega

/-- A piece on a line of its own. -/
theorem line_own {t : TextSpan} (ht : CalmSpan n t) (hp : ∃ d, t.dimensions = some d ∧ d.x ≤ 1048576) (h1 : spanW t ≤ 131072) (h2 : t.justify = .right → spanW t ≤ 609) : CalmLine n [t] := by
  refine ⟨by simpa using ht, by simp [lineW]; omega, ?_, by simpa using hp⟩
  intro f rest e hr
  simp only [List.cons.injEq] at e
  simp only [lineW, List.map_cons, List.map_nil, List.sum_cons, List.sum_nil]
  exact h2 (e.1 ▸ hr)

theorem put_own {b} {l : Layout} (h : CalmLay n b l) (hc : l.currentLine = []) (hx : Start l.context) {t : TextSpan} (ht : CalmSpan n t)
    (h1 : spanW t ≤ 131072) (h2 : t.justify = .right → spanW t ≤ 609) :
    ∃ c, l.context.offsetX (spanW t) = .ok c ∧ CalmLay n b ⟨c, l.lines, l.currentLine ++ [t.at_ l.context]⟩ := by
  obtain ⟨c, e1, e2, e3⟩ := h.lane.offsetX (w := spanW t) (by unfold Start at hx; omega)
  refine ⟨c, e1, e2, h.lines, ?_, ?_⟩
  · rw [hc]; exact line_own (ht.at_ _) ⟨_, rfl, h.lane.xle⟩ h1 h2
  · simp only [hc, List.nil_append, lineW, List.map_cons, List.map_nil, List.sum_cons, List.sum_nil, e3, spanW_at]; omega

theorem broken_own {t : TextSpan} {rest : List TextSpan} {b} {l : Layout} (h : CalmLay n b l) (hc : l.currentLine = []) (hx : Start l.context)
    (hbs : ∀ s ∈ t :: rest, CalmSpan n s ∧ spanW s ≤ 131072 ∧ (s.justify = .right → spanW s ≤ 609)) (hb : b + 255 * rest.length < U32) :
    ∃ l', layoutBroken (t :: rest) l = .ok l' ∧ CalmLay n (b + 255 * rest.length) l' := by
  induction rest generalizing b l t with
  | nil =>
    obtain ⟨t1, t2, t3⟩ := hbs t (by simp)
    have hu : spanW t < U32 := Nat.lt_of_le_of_lt t2 (by decide)
    obtain ⟨c, e1, e2⟩ := h.put_own hc hx t1 t2 t3
    refine ⟨_, ?_, e2.mono (Nat.le_add_right _ _)⟩
    simp only [layoutBroken, getDimensions_total hu, bind, Except.bind]
    rw [getWidth_total (t := t.at_ l.context) hu]
    simp only [spanW_at, e1]
    rfl
  | cons t' rest ih =>
    obtain ⟨t1, t2, t3⟩ := hbs t (by simp)
    have hu : spanW t < U32 := Nat.lt_of_le_of_lt t2 (by decide)
    rw [List.length_cons] at hb
    have hb' : b + 255 < U32 := Nat.lt_of_le_of_lt (by clear hb; omega) hb
    have hl := line_own (t1.at_ l.context) ⟨_, rfl, h.lane.xle⟩ t2 t3
    obtain ⟨l1, e1, e2, e3, e4⟩ := finish' (l := ⟨l.context, l.lines, l.currentLine ++ [t.at_ l.context]⟩) h.lane h.lines
      (by rw [hc]; exact hl) hb'
    obtain ⟨l2, e5, e6⟩ := ih e2 e3 e4 (fun s hs => hbs s (List.mem_cons_of_mem _ hs)) (by omega)
    refine ⟨l2, ?_, e6.mono (by rw [List.length_cons]; omega)⟩
    simp only [layoutBroken, getDimensions_total hu, bind, Except.bind, e1, e5]

theorem broken {t : TextSpan} {rest : List TextSpan} {b} {l : Layout} (h : CalmLay n b l) (ht : CalmSpan n t) (hw : spanW t ≤ l.context.availableWidth)
    (hbs : ∀ t ∈ rest, CalmSpan n t ∧ spanW t ≤ 131072 ∧ (t.justify = .right → spanW t ≤ 609)) (hb : b + 255 * rest.length < U32) :
    ∃ l', layoutBroken (t :: rest) l = .ok l' ∧ CalmLay n (b + 255 * rest.length) l' := by
  have hu : spanW t < U32 := Nat.lt_of_le_of_lt (Nat.le_trans (Nat.le_add_left _ _) (h.lane.fits hw)) (by decide)
  cases rest with
  | nil =>
    obtain ⟨c, e1, e2⟩ := h.put ht hw
    refine ⟨_, ?_, e2.mono (Nat.le_add_right _ _)⟩
    simp only [layoutBroken, getDimensions_total hu, bind, Except.bind]
    rw [getWidth_total (t := t.at_ l.context) hu]
    simp only [spanW_at, e1]
    rfl
  | cons t' rest =>
    rw [List.length_cons] at hb
    have hb' : b + 255 < U32 := Nat.lt_of_le_of_lt (by clear hb; omega) hb
    obtain ⟨l1, e1, e2, e3, e4⟩ := finish' (l := ⟨l.context, l.lines, l.currentLine ++ [t.at_ l.context]⟩) h.lane h.lines
      (h.line_snoc (ht.at_ l.context) ⟨_, rfl, h.lane.xle⟩ hw).1 hb'
    obtain ⟨l2, e5, e6⟩ := e2.broken_own e3 e4 hbs (by omega)
    refine ⟨l2, ?_, e6.mono (by rw [List.length_cons]; omega)⟩
    simp only [layoutBroken, getDimensions_total hu, bind, Except.bind, e1, e5]

/-! ### The parts of a broken word -/

theorem chunks_length (len : Nat) : ∀ (k : Nat) (s : Str), (chunksAux len k s).length ≤ k
  | 0, _ => by simp [chunksAux]
  | k + 1, [] => by simp [chunksAux]
  | k + 1, c :: s => by simp only [chunksAux, List.length_cons]; have := chunks_length len k ((c :: s).drop len); omega

theorem chunks_le (len : Nat) : ∀ (k : Nat) (s : Str), ∀ x ∈ chunksAux len k s, x.length ≤ len
  | 0, _ => by simp [chunksAux]
  | k + 1, [] => by simp [chunksAux]
  | k + 1, c :: s => by
    intro x hx
    simp only [chunksAux, List.mem_cons] at hx
    rcases hx with rfl | hx
    · rw [List.length_take]; omega
    · exact chunks_le len k _ x hx

theorem breakApart_calm {w : TextSpan} (hw : CalmSpan n w) {a m : Nat} (hm : m ≤ 131072) (hn : n = true → m = 609) :
    ∃ t rest, w.breakApart (a / w.characterWidth) (max (m / w.characterWidth) w.characterWidth) = .ok (t :: rest) ∧
      CalmSpan n t ∧ spanW t ≤ a ∧ (∀ s ∈ rest, CalmSpan n s ∧ spanW s ≤ 131072 ∧ (s.justify = .right → spanW s ≤ 609)) ∧
      rest.length ≤ w.text.length := by
  have hp := hw.pos
  have hl : max (m / w.characterWidth) w.characterWidth ≠ 0 := by omega
  have chunk : ∀ x : Str, x.length ≤ max (m / w.characterWidth) w.characterWidth →
      CalmSpan n (w.cloneWith x) ∧ spanW (w.cloneWith x) ≤ 131072 ∧ ((w.cloneWith x).justify = .right → spanW (w.cloneWith x) ≤ 609) := by
    intro x hx
    have h1 : m / w.characterWidth * w.characterWidth ≤ m := Nat.div_mul_le_self _ _
    have h2 : w.characterWidth * w.characterWidth ≤ 96 * 96 := Nat.mul_le_mul hw.width hw.width
    have h3 : spanW (w.cloneWith x) ≤ max (m / w.characterWidth) w.characterWidth * w.characterWidth := Nat.mul_le_mul_right _ hx
    have h4 : max (m / w.characterWidth) w.characterWidth * w.characterWidth =
        max (m / w.characterWidth * w.characterWidth) (w.characterWidth * w.characterWidth) := by
      rcases Nat.le_total (m / w.characterWidth) w.characterWidth with h | h
      · rw [Nat.max_eq_right h, Nat.max_eq_right (Nat.mul_le_mul_right _ h)]
      · rw [Nat.max_eq_left h, Nat.max_eq_left (Nat.mul_le_mul_right _ h)]
    refine ⟨hw.clone x, by omega, ?_⟩
    intro hr
    have h5 : w.characterWidth * w.characterWidth ≤ 24 * 24 := Nat.mul_le_mul (hw.right hr).2 (hw.right hr).2
    have := hn (hw.right hr).1
    omega
  unfold TextSpan.breakApart
  rw [if_neg hl]
  split
  · refine ⟨_, _, rfl, hw.clone _, ?_, ?_, ?_⟩
    · have h1 : (w.text.take (a / w.characterWidth)).length ≤ a / w.characterWidth := by rw [List.length_take]; omega
      exact Nat.le_trans (Nat.mul_le_mul_right _ h1) (Nat.div_mul_le_self _ _)
    · intro s hs
      obtain ⟨x, hx, rfl⟩ := List.mem_map.1 hs
      exact chunk x (chunks_le _ _ _ x hx)
    · rw [List.length_map]; exact chunks_length _ _ _
  · refine ⟨_, _, rfl, hw.clone _, ?_, ?_, ?_⟩
    · simp [spanW, TextSpan.cloneWith]
    · intro s hs
      obtain ⟨x, hx, rfl⟩ := List.mem_map.1 hs
      exact chunk x (chunks_le _ _ _ x hx)
    · rw [List.length_map]; exact chunks_length _ _ _

theorem tabStop_calm {cw x : Nat} (hcw : cw ≤ 96) : ∀ (ts : List Byte) (p : Nat), p + 24480 * ts.length ≤ 917504 →
    ∃ o, tabStop cw x ts p = .ok o ∧ ∀ q, o = some q → q ≤ 917504
  | [], _, _ => ⟨none, rfl, by simp⟩
  | t :: ts, p, hp => by
    rw [List.length_cons] at hp
    unfold tabStop
    split
    · refine ⟨_, rfl, ?_⟩
      intro q hq
      cases hq; omega
    · have h1 : t.toNat * cw ≤ 255 * 96 := Nat.mul_le_mul (by have := t.toNat_lt; omega) hcw
      have h2 : mulU32 t.toNat cw = .ok (t.toNat * cw) := mulU32_ok.2 ⟨Nat.lt_of_le_of_lt h1 (by decide), rfl⟩
      have h3 : addU32 p (t.toNat * cw) = .ok (p + t.toNat * cw) := addU32_ok.2 ⟨Nat.lt_of_le_of_lt (m := 1048576) (by omega) (by decide), rfl⟩
      rw [h2]
      show ∃ o, (addU32 p (t.toNat * cw) >>= fun q => tabStop cw x ts q) = .ok o ∧ _
      rw [h3]
      exact tabStop_calm hcw ts _ (by omega)

theorem word {b} {l : Layout} (h : CalmLay n b l) {w : TextSpan} (hw : CalmSpan n w) (hb : b + 255 * w.text.length < U32) {m : Nat} (hm : m ≤ 131072) (hn : n = true → m = 609) :
    ∃ l', layoutWord m l w = .ok l' ∧ CalmLay n (b + 255 * w.text.length) l' := by
  have hu : spanW w < U32 := by
    have : w.text.length * w.characterWidth ≤ w.text.length * 96 := Nat.mul_le_mul_left _ hw.width
    unfold spanW; omega
  have ha := h.lane.avail
  unfold layoutWord
  simp only [getWidth_total hu, bind, Except.bind]
  by_cases hnl : w.text = ['\n']
  · rw [if_pos hnl]
    have h1 : w.text.length = 1 := by rw [hnl]; rfl
    rw [h1] at hb ⊢
    obtain ⟨l1, e1, e2, e3, e4⟩ := h.finish hb
    rw [e1]
    refine ⟨_, rfl, e2.lane, ?_, ?_, ?_⟩
    · intro x hx
      rcases List.mem_append.1 hx with hx | hx
      · exact e2.lines x hx
      · rw [List.mem_singleton.1 hx]; exact emptyLine
    · exact e2.current
    · exact e2.sum
  rw [if_neg hnl]
  by_cases ht : w.text = ['\t']
  · rw [if_pos ht]
    obtain ⟨o, e1, e2⟩ := tabStop_calm (x := l.context.getX) hw.width l.context.text.tabs 0 (by rw [h.lane.tabs]; decide)
    rw [e1]
    cases o with
    | none => exact ⟨l, rfl, h.mono (by omega)⟩
    | some q =>
      obtain ⟨c, e3, e4, e5⟩ := h.lane.setX (e2 q rfl)
      dsimp only
      rw [e3]
      refine ⟨_, rfl, e4.mono (by omega), h.lines, h.current, ?_⟩
      have := tabStop_ge e1
      have := h.sum
      dsimp only
      omega
  rw [if_neg ht]
  by_cases hf : spanW w ≤ l.context.availableWidth
  · rw [if_pos hf, getDimensions_total hu]
    obtain ⟨c, e1, e2⟩ := h.put hw hf
    dsimp only
    rw [e1]
    exact ⟨_, rfl, e2.mono (by omega)⟩
  rw [if_neg hf]
  have hpos : 1 ≤ w.text.length := by
    rcases Nat.eq_zero_or_pos w.text.length with h0 | h0
    · exact absurd (by simp [spanW, h0]) hf
    · exact h0
  by_cases hmw : spanW w > m
  · rw [if_pos hmw, divU_ok.2 ⟨by have := hw.pos; omega, rfl⟩, divU_ok.2 ⟨by have := hw.pos; omega, rfl⟩]
    obtain ⟨t, rest, e1, e2, e3, e4, e5⟩ := breakApart_calm hw (a := l.context.availableWidth) hm hn
    dsimp only
    rw [e1]
    obtain ⟨l1, e6, e7⟩ := h.broken e2 e3 e4 (by omega)
    exact ⟨l1, e6, e7.mono (by omega)⟩
  · rw [if_neg hmw]
    obtain ⟨l1, e1, e2, e3, e4⟩ := h.finish (by omega)
    rw [e1]
    dsimp only
    rw [getDimensions_total hu]
    obtain ⟨c, e5, e6⟩ := e2.put_own e3 e4 hw (by omega) (fun hr => by have := hn (hw.right hr).1; omega)
    dsimp only
    rw [e5]
    exact ⟨_, rfl, e6.mono (by omega)⟩

/-- The number of characters. -/
def chars (ws : List TextSpan) : Nat := (ws.map fun w => w.text.length).sum

theorem words {ws : List TextSpan} {b} {l : Layout} (h : CalmLay n b l) (hw : ∀ w ∈ ws, CalmSpan n w) (hb : b + 255 * chars ws < U32) {m : Nat} (hm : m ≤ 131072)
    (hn : n = true → m = 609) : ∃ l', layoutWords m ws l = .ok l' ∧ CalmLay n (b + 255 * chars ws) l' := by
  induction ws generalizing b l with
  | nil => exact ⟨l, rfl, h⟩
  | cons w ws ih =>
    have e : chars (w :: ws) = w.text.length + chars ws := by simp [chars]
    rw [e] at hb ⊢
    obtain ⟨l1, e1, e2⟩ := h.word (hw w (by simp)) (by omega) hm hn
    obtain ⟨l2, e3, e4⟩ := ih e2 (fun s hs => hw s (by simp [hs])) (by omega)
    refine ⟨l2, ?_, e4.mono (by omega)⟩
    simp only [layoutWords, e1, bind, Except.bind, e3]

theorem wordsLoop_length : ∀ (s cur : Str), ((wordsLoop s cur).map List.length).sum = s.length + cur.length
  | [], cur => by
    unfold wordsLoop
    split
    · rename_i h; simp [h]
    · simp
  | c :: rest, cur => by
    unfold wordsLoop
    split
    · simp only [List.map_cons, List.sum_cons, wordsLoop_length rest [], List.length_append, List.length_cons, List.length_nil]; omega
    · rw [wordsLoop_length rest]; simp only [List.length_append, List.length_cons, List.length_nil]; omega

theorem chars_words (ss : List TextSpan) : chars (ss.flatMap TextSpan.breakIntoWords) = chars ss := by
  induction ss with
  | nil => rfl
  | cons s ss ih =>
    have h1 := wordsLoop_length s.text []
    have h2 : (s.breakIntoWords.map fun w => w.text.length) = (wordsLoop s.text []).map List.length := by
      simp only [TextSpan.breakIntoWords, List.map_map]; rfl
    simp only [chars, List.flatMap_cons, List.map_append, List.sum_append, List.map_cons, List.sum_cons] at ih ⊢
    rw [ih, h2, h1]; simp

/-- Laying out text returns. -/
theorem text {ss : List TextSpan} {b} {c : Context} (hc : Lane n b c) (hs : ∀ s ∈ ss, CalmSpan n s) (hb : b + 255 * chars ss < U32) :
    ∃ c' ls, layoutText ss c = .ok (c', ls) ∧ Lane n (b + 255 * chars ss) c' ∧ ∀ x ∈ ls, CalmLine n x := by
  obtain ⟨l, e1, e2⟩ := words (ws := ss.flatMap TextSpan.breakIntoWords) (b := b) (l := ⟨c, [], []⟩)
    ⟨hc, by simp, emptyLine, by simp [lineW]⟩ (by
      intro w hw
      obtain ⟨s, h1, h2⟩ := List.mem_flatMap.1 hw
      obtain ⟨x, _, rfl⟩ := List.mem_map.1 h2
      exact (hs s h1).clone x) (by rw [chars_words]; exact hb) hc.getWidth hc.getWidth_narrow
  rw [chars_words] at e2
  refine ⟨l.context, if l.currentLine = [] then l.lines else l.lines ++ [l.currentLine], ?_, e2.lane, ?_⟩
  · simp only [layoutText, e1, bind, Except.bind]; rfl
  · intro x hx
    split at hx
    · exact e2.lines x hx
    · rcases List.mem_append.1 hx with hx | hx
      · exact e2.lines x hx
      · rw [List.mem_singleton.1 hx]; exact e2.current

/-- Every line is above the pen. -/
theorem layoutText_low {ss : List TextSpan} {c c' : Context} {ls} (h : layoutText ss c = .ok (c', ls)) : ∀ l ∈ ls, ∃ y, LineAt l y ∧ y ≤ c'.getY := by
  simp only [bind_ok, layoutText, pure_ok, Prod.mk.injEq] at h
  obtain ⟨l, h1, rfl, rfl⟩ := h
  obtain ⟨ss, a1, _, _⟩ := layoutWords_steps h1 rfl
  have hlaid : Laid c l := a1.laid ⟨PenDown.refl _, by simp, by simp, ⟨by simp, by simp⟩, by simp⟩
  have hlines : ∀ x ∈ l.lines, ∃ y, LineAt x y ∧ y ≤ l.context.getY := by
    intro x hx
    obtain ⟨y, _, h2, h3⟩ := hlaid.lines x hx
    exact ⟨y, h2, by omega⟩
  intro x hx
  split at hx
  · exact hlines x hx
  · rcases List.mem_append.1 hx with hx | hx
    · exact hlines x hx
    · rw [List.mem_singleton.1 hx]; exact ⟨_, hlaid.current, Nat.le_refl _⟩

theorem lineWidth_calm {l : List TextSpan} : ∀ {a : Nat}, a + lineW l ≤ 1048576 → lineWidth l a = .ok (a + lineW l) := by
  induction l with
  | nil => intro a _; rfl
  | cons t l ih =>
    intro a ha
    have e : lineW (t :: l) = spanW t + lineW l := by simp [lineW]
    rw [e] at ha ⊢
    have hu : spanW t < U32 := Nat.lt_of_le_of_lt (m := 1048576) (by omega) (by decide)
    have h3 : addU32 a (spanW t) = .ok (a + spanW t) := addU32_ok.2 ⟨Nat.lt_of_le_of_lt (m := 1048576) (by omega) (by decide), rfl⟩
    simp only [lineWidth, getWidth_total hu, bind, Except.bind, h3]
    rw [ih (by omega)]
    congr 1; omega

theorem lineOffset_calm {f : TextSpan} {rest : List TextSpan} (h : CalmLine n (f :: rest)) {m : Nat} (hn : n = true → m = 609) :
    ∃ k, lineOffset f.justify m (lineW (f :: rest)) = .ok k ∧ k ≤ m := by
  unfold lineOffset
  split
  · rename_i hj
    exact ⟨_, subU_ok.2 ⟨(hn ((h.spans f (by simp)).right hj).1).symm ▸ h.right f rest rfl hj, rfl⟩, by omega⟩
  all_goals (refine ⟨_, rfl, ?_⟩; first | omega | (split <;> omega))

end CalmLay
end Thermal
