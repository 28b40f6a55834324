import Verif.Proofs.History
import Verif.Proofs.Touch
import Verif.Proofs.Layout
/-
Positions stay in the range of `u32`: the model's numbers are unbounded, the program's `u32` fields are not, and every
computed position has passed a checked operation.
-/
namespace Thermal
open Renderer

/-- All four numbers are `u32`s. -/
def RenderArea.InU32 (a : RenderArea) : Prop := a.x < U32 ∧ a.y < U32 ∧ a.w < U32 ∧ a.h < U32

/-- The pens and areas are made of `u32`s. -/
structure InU32 (c : Context) : Prop where
  paper : c.graphics.renderArea.InU32
  pen : c.pageMode.renderArea.InU32
  page : c.pageMode.pageArea.InU32
  logical : c.pageMode.logicalArea.InU32
  default : c.default = some defaultSettings

namespace InU32

theorem start : InU32 Context.new := by
  refine ⟨?_, ?_, ?_, ?_, rfl⟩ <;> (unfold RenderArea.InU32; decide)

theorem getX {c : Context} (h : InU32 c) : c.getX < U32 := by
  unfold Context.getX; split
  · exact h.pen.1
  · exact h.paper.1

theorem getY {c : Context} (h : InU32 c) : c.getY < U32 := by
  unfold Context.getY; split
  · exact h.pen.2.1
  · exact h.paper.2.1

theorem getWidth {c : Context} (h : InU32 c) : c.getWidth < U32 := by
  unfold Context.getWidth; split
  · exact h.pen.2.2.1
  · exact h.paper.2.2.1

theorem justification {c : Context} (h : InU32 c) (w : Nat) : c.justification w < U32 := by
  have h1 := h.getWidth
  have h0 : 0 < U32 := by decide
  unfold Context.justification
  dsimp only
  generalize c.getWidth = g at *
  repeat' split
  all_goals omega

theorem putX {c : Context} (h : InU32 c) {x : Nat} (hx : x < U32) : InU32 (c.putX x) := by
  unfold Context.putX; split
  · exact ⟨h.paper, ⟨hx, h.pen.2⟩, h.page, h.logical, h.default⟩
  · exact ⟨⟨hx, h.paper.2⟩, h.pen, h.page, h.logical, h.default⟩

theorem putY {c : Context} (h : InU32 c) {x : Nat} (hx : x < U32) : InU32 (c.putY x) := by
  unfold Context.putY; split
  · exact ⟨h.paper, ⟨h.pen.1, hx, h.pen.2.2⟩, h.page, h.logical, h.default⟩
  · exact ⟨⟨h.paper.1, hx, h.paper.2.2⟩, h.pen, h.page, h.logical, h.default⟩

theorem resetX {c : Context} (h : InU32 c) : InU32 c.resetX := by
  refine h.putX ?_
  unfold Context.baseX; split
  · exact h.page.1
  · decide

theorem offsetX {c c' : Context} {x : Nat} (h : InU32 c) (e : c.offsetX x = .ok c') : InU32 c' := by
  obtain ⟨a, rfl⟩ := offsetX_ok.1 e; exact h.putX a

theorem offsetY {c c' : Context} {x : Nat} (h : InU32 c) (e : c.offsetY x = .ok c') : InU32 c' := by
  obtain ⟨a, rfl⟩ := offsetY_ok.1 e; exact h.putY a

theorem setX {c c' : Context} {x : Nat} (h : InU32 c) (hx : x < U32) (e : c.setX x = .ok c') : InU32 c' := by
  unfold Context.setX at e
  split at e
  · simp only [bind_ok, pure_ok, PageModeContext.setX, addU32_ok] at e
    obtain ⟨_, ⟨v, ⟨hv, rfl⟩, rfl⟩, rfl⟩ := e
    exact ⟨h.paper, ⟨hv, h.pen.2⟩, h.page, h.logical, h.default⟩
  · rw [pure_ok] at e; subst e; exact h.putX hx

theorem newline {c c' : Context} {n : Nat} (h : InU32 c) (e : c.newline n = .ok c') : InU32 c' := by
  simp only [Context.newline, bind_ok] at e
  obtain ⟨v, _, h1⟩ := e
  exact h.resetX.offsetY h1

theorem feed {c c' : Context} {n : Nat} (h : InU32 c) (e : c.feed n = .ok c') : InU32 c' := by
  simp only [Context.feed, bind_ok, pure_ok] at e
  obtain ⟨v, h1, rfl⟩ := e
  exact (h.offsetY h1).resetX

theorem newlineForSpans {c c' : Context} {l : List TextSpan} (h : InU32 c) (e : c.newlineForSpans l = .ok c') : InU32 c' :=
  h.resetX.offsetY e

theorem finishLine {l l' : Layout} (h : InU32 l.context) (e : l.finishLine = .ok l') : InU32 l'.context := by
  simp only [Layout.finishLine, bind_ok, pure_ok] at e
  obtain ⟨c, h1, rfl⟩ := e
  exact h.newlineForSpans h1

theorem tabStop {cw x : Nat} {ts : List Byte} {p q : Nat} (hp : p < U32) (h : Thermal.tabStop cw x ts p = .ok (some q)) : q < U32 := by
  induction ts generalizing p with
  | nil => simp only [Thermal.tabStop, ok_ok] at h; cases h
  | cons t ts ih =>
    unfold Thermal.tabStop at h
    split at h
    · rw [ok_ok] at h; cases h; exact hp
    · simp only [bind_ok, addU32_ok] at h
      obtain ⟨_, _, _, ⟨a, rfl⟩, h⟩ := h
      exact ih a h

/-- A span has a position, and it is made of `u32`s. -/
def Span (s : TextSpan) : Prop := ∃ d, s.dimensions = some d ∧ d.x < U32 ∧ d.y < U32

theorem at_ {c : Context} (h : InU32 c) (s : TextSpan) : Span (s.at_ c) := ⟨_, rfl, h.getX, h.getY⟩

/-- The pen and the spans of a layout. -/
def Lay (l : Layout) : Prop := InU32 l.context ∧ (∀ line ∈ l.lines, ∀ s ∈ line, Span s) ∧ ∀ s ∈ l.currentLine, Span s

theorem Lay.finish {l l' : Layout} (h : Lay l) (e : l.finishLine = .ok l') : Lay l' := by
  have hc := h.1.finishLine e
  simp only [Layout.finishLine, bind_ok, pure_ok] at e
  obtain ⟨c, h1, rfl⟩ := e
  refine ⟨hc, ?_, by simp⟩
  intro line hl
  rcases List.mem_append.1 hl with hl | hl
  · exact h.2.1 line hl
  · rw [List.mem_singleton.1 hl]; exact h.2.2

theorem Lay.put {l : Layout} (h : Lay l) {s : TextSpan} (hs : Span s) {c : Context} (hc : InU32 c) :
    Lay ⟨c, l.lines, l.currentLine ++ [s]⟩ := by
  refine ⟨hc, h.2.1, ?_⟩
  intro t ht
  rcases List.mem_append.1 ht with ht | ht
  · exact h.2.2 t ht
  · rw [List.mem_singleton.1 ht]; exact hs

theorem layoutBroken {bs : List TextSpan} {l l' : Layout} (hl : Lay l) (h : layoutBroken bs l = .ok l') : Lay l' := by
  induction bs generalizing l with
  | nil => simp only [Thermal.layoutBroken, ok_ok] at h; subst h; exact hl
  | cons b rest ih =>
    cases rest with
    | nil =>
      simp only [Thermal.layoutBroken, bind_ok, pure_ok] at h
      obtain ⟨b', hb, w, _, c, h1, rfl⟩ := h
      rw [(getDimensions_ok hb).1]
      exact hl.put (hl.1.at_ _) (hl.1.offsetX h1)
    | cons b2 rest =>
      simp only [Thermal.layoutBroken, bind_ok] at h
      obtain ⟨b', hb, l1, h1, h2⟩ := h
      rw [(getDimensions_ok hb).1] at h1
      exact ih ((hl.put (hl.1.at_ _) hl.1).finish h1) h2

theorem layoutWord {m : Nat} {l l' : Layout} {w : TextSpan} (hl : Lay l) (h : layoutWord m l w = .ok l') : Lay l' := by
  simp only [Thermal.layoutWord, bind_ok] at h
  obtain ⟨ww, _, h⟩ := h
  split at h
  · simp only [bind_ok, pure_ok] at h
    obtain ⟨l1, h1, rfl⟩ := h
    have a := hl.finish h1
    refine ⟨a.1, ?_, a.2.2⟩
    intro line hm
    rcases List.mem_append.1 hm with hm | hm
    · exact a.2.1 line hm
    · rw [List.mem_singleton.1 hm]; simp
  split at h
  · simp only [bind_ok] at h
    obtain ⟨o, ht, h⟩ := h
    split at h
    · simp only [bind_ok, pure_ok] at h
      obtain ⟨c, h1, rfl⟩ := h
      exact ⟨hl.1.setX (tabStop (by decide) ht) h1, hl.2⟩
    · rw [pure_ok] at h; subst h; exact hl
  split at h
  · simp only [bind_ok, pure_ok] at h
    obtain ⟨b', hb, c, h1, rfl⟩ := h
    rw [(getDimensions_ok hb).1]
    exact hl.put (hl.1.at_ _) (hl.1.offsetX h1)
  split at h
  · simp only [bind_ok] at h
    obtain ⟨_, _, _, _, _, _, h⟩ := h
    exact layoutBroken hl h
  · simp only [bind_ok, pure_ok] at h
    obtain ⟨l1, h1, b', hb, c, h2, rfl⟩ := h
    rw [(getDimensions_ok hb).1]
    have a := hl.finish h1
    exact a.put (a.1.at_ _) (a.1.offsetX h2)

theorem layoutWords {m : Nat} {ws : List TextSpan} {l l' : Layout} (hl : Lay l) (h : layoutWords m ws l = .ok l') : Lay l' := by
  induction ws generalizing l with
  | nil => simp only [Thermal.layoutWords, ok_ok] at h; subst h; exact hl
  | cons w ws ih =>
    simp only [Thermal.layoutWords, bind_ok] at h
    obtain ⟨l1, h1, h2⟩ := h
    exact ih (layoutWord hl h1) h2

theorem layoutText {ss : List TextSpan} {c c' : Context} {ls} (hc : InU32 c) (h : layoutText ss c = .ok (c', ls)) :
    InU32 c' ∧ ∀ line ∈ ls, ∀ s ∈ line, Span s := by
  simp only [Thermal.layoutText, bind_ok, pure_ok, Prod.mk.injEq] at h
  obtain ⟨l, h1, rfl, rfl⟩ := h
  have a := layoutWords (l := ⟨c, [], []⟩) ⟨hc, by simp, by simp⟩ h1
  refine ⟨a.1, ?_⟩
  split
  · exact a.2.1
  · intro line hm
    rcases List.mem_append.1 hm with hm | hm
    · exact a.2.1 line hm
    · rw [List.mem_singleton.1 hm]; exact a.2.2

theorem code2dRow {q : Code2D} {o i : Nat} {c c' : Context} (hc : InU32 c) (ho : o < U32) (h : Renderer.code2dRow q o i c = .ok c') : InU32 c' := by
  unfold Renderer.code2dRow at h
  split at h
  · rw [ok_ok] at h; subst h; exact hc
  split at h
  · cases h
  split at h
  · simp only [bind_ok] at h
    obtain ⟨c2, h2, h3⟩ := h
    exact (hc.setX ho h2).offsetY h3
  · rw [ok_ok] at h; subst h; exact hc

theorem imageBefore {c c' : Context} {i : Image} (hc : InU32 c) (h : Renderer.imageBefore c i = .ok c') : InU32 c' := by
  unfold Renderer.imageBefore at h
  split at h
  · split at h
    · exact hc.newline h
    · rw [pure_ok] at h; subst h; exact hc
  · split at h
    · rw [pure_ok] at h; subst h; exact hc
    · exact hc.setX (hc.justification _) h
  · rw [pure_ok] at h; subst h; exact hc

theorem imageAfter {c c' : Context} {i : Image} (hc : InU32 c) (h : Renderer.imageAfter c i = .ok c') : InU32 c' := by
  unfold Renderer.imageAfter at h
  split at h
  · exact hc.offsetX h
  · split at h
    · rw [pure_ok] at h; subst h; exact hc
    · simp only [bind_ok, pure_ok] at h
      obtain ⟨c3, h3, rfl⟩ := h
      exact (hc.offsetY h3).resetX
  · rw [pure_ok] at h; subst h; exact hc

/-- Rectangles at `u32` positions. -/
def Rects (gs : List Rectangle) : Prop := ∀ g ∈ gs, g.x < U32 ∧ g.y < U32

theorem Rects.put {c : Context} (hc : InU32 c) {gs : List Rectangle} (h : Rects gs) (w hh : Nat) : Rects (gs ++ [⟨c.getX, c.getY, w, hh⟩]) := by
  intro g hg
  rcases List.mem_append.1 hg with hg | hg
  · exact h g hg
  · rw [List.mem_singleton.1 hg]; exact ⟨hc.getX, hc.getY⟩

theorem code2dLoop {q : Code2D} {o : Nat} {ps : List Byte} {i : Nat} {c : Context} {acc : List Rectangle} {r} (hc : InU32 c) (ho : o < U32)
    (ha : Rects acc) (h : Renderer.code2dLoop q o ps i c acc = .ok r) : InU32 r.1 ∧ Rects r.2 := by
  induction ps generalizing i c acc with
  | nil => simp only [Renderer.code2dLoop, ok_ok] at h; subst h; exact ⟨hc, ha⟩
  | cons p ps ih =>
    simp only [Renderer.code2dLoop, bind_ok] at h
    obtain ⟨c1, h1, h⟩ := h
    have h2 := code2dRow hc ho h1
    split at h
    · split at h
      · exact ih h2 ha h
      · simp only [bind_ok] at h
        obtain ⟨c3, h3, h⟩ := h
        exact ih (h2.offsetX h3) (ha.put h2 _ _) h
    · simp only [bind_ok] at h
      obtain ⟨c3, h3, h⟩ := h
      exact ih (h2.offsetX h3) ha h

theorem barcodeLoop {b : Barcode} {ps : List Byte} {c : Context} {acc : List Rectangle} {r} (hc : InU32 c) (ha : Rects acc)
    (h : Renderer.barcodeLoop b ps c acc = .ok r) : InU32 r.1 ∧ Rects r.2 := by
  induction ps generalizing c acc with
  | nil => simp only [Renderer.barcodeLoop, ok_ok] at h; subst h; exact ⟨hc, ha⟩
  | cons p ps ih =>
    simp only [Renderer.barcodeLoop] at h
    split at h
    · exact ih hc ha h
    · simp only [bind_ok] at h
      obtain ⟨c3, h3, h⟩ := h
      refine ih (hc.offsetX h3) ?_ h
      split
      · exact ha.put hc _ _
      · exact ha

/-! ### Settings -/

theorem addClamp_fits {v n : Nat} {d : Int} (h : addClamp v d = .ok n) : n < U32 := by
  unfold addClamp at h
  dsimp only at h
  generalize (if v < 2147483648 then (v : Int) else (v : Int) - 4294967296) = a at h
  split at h
  · rw [ok_ok] at h
    have : U32 = 4294967296 := rfl
    omega
  · cases h

theorem logicalArea {p p' : PageModeContext} {x} (hr : p.renderArea.InU32) (hp : p.pageArea.InU32) (hl : p.logicalArea.InU32)
    (h : p.applyLogicalArea = .ok (p', x)) : p'.renderArea.InU32 ∧ p'.pageArea.InU32 ∧ p'.logicalArea.InU32 := by
  have hlog := (applyLogicalArea_fields h).2.1
  simp only [PageModeContext.applyLogicalArea, bind_ok, pure_ok, addU32_ok] at h
  obtain ⟨q, hq, _, ⟨a1, rfl⟩, _, ⟨a2, rfl⟩, h⟩ := h
  obtain ⟨rfl, _⟩ := Prod.mk.inj h
  have hs : (swapPage p).pageArea.InU32 ∧ (swapPage p).logicalArea = p.logicalArea := by
    unfold swapPage
    dsimp only
    split
    · exact ⟨⟨hp.1, hp.2.1, hp.2.2.2, hp.2.2.1⟩, rfl⟩
    · exact ⟨hp, rfl⟩
  have hq' : q.renderArea.InU32 ∧ q.pageArea.InU32 := by
    unfold translateArea at hq
    have e1 := hs.1
    have e2 := hs.2
    generalize swapPage p = s at *
    obtain ⟨l1, l2, l3, l4⟩ := hl
    rw [← e2] at l1 l2 l3 l4
    obtain ⟨p1, p2, p3, p4⟩ := e1
    have e1 : s.pageArea.InU32 := ⟨p1, p2, p3, p4⟩
    split at hq
    · rw [pure_ok] at hq; subst hq; exact ⟨⟨l1, l2, l3, l4⟩, e1⟩
    · simp only [translateBottomRightToLeft, bind_ok, pure_ok, addU32_ok] at hq
      obtain ⟨_, _, rfl⟩ := hq
      exact ⟨⟨Nat.lt_of_le_of_lt (Nat.sub_le _ _) p3, l2, l3, l4⟩, e1⟩
    · simp only [translateTopRightToBottom, bind_ok, pure_ok, addU32_ok] at hq
      obtain ⟨_, _, _, _, rfl⟩ := hq
      exact ⟨⟨Nat.lt_of_le_of_lt (Nat.sub_le _ _) p3, Nat.lt_of_le_of_lt (Nat.sub_le _ _) p4, l4, l3⟩, e1⟩
    · simp only [translateBottomLeftToTop, bind_ok, pure_ok, addU32_ok] at hq
      obtain ⟨_, _, rfl⟩ := hq
      exact ⟨⟨Nat.lt_of_le_of_lt (Nat.sub_le _ _) p3, l1, l4, l3⟩, e1⟩
  refine ⟨hq'.1, ⟨hq'.1.1, hq'.1.2.1, ?_, ?_⟩, ?_⟩
  · exact Nat.max_lt.2 ⟨a1, hq'.2.2.2.1⟩
  · exact Nat.max_lt.2 ⟨a2, hq'.2.2.2.2⟩
  · have : q.logicalArea = p.logicalArea := hlog
    show q.logicalArea.InU32
    rw [this]; exact hl

theorem of_only {fs : List Setting} {c c' : Context} (h : OnlyChanges fs c c')
    (hf : ∀ f ∈ [Setting.paperX, .paperY, .printWidth, .printHeight, .logicalArea, .pageX, .pageY, .pageW, .pageH, .pageArea, .defaults], f ∉ fs)
    (hc : InU32 c) : InU32 c' := by
  have e (f : Setting) (hm : f ∈ [Setting.paperX, .paperY, .printWidth, .printHeight, .logicalArea, .pageX, .pageY, .pageW, .pageH, .pageArea, .defaults]) :
      f.same c c' := h f (hf f hm)
  have e1 : c'.graphics.renderArea = c.graphics.renderArea := by
    have a1 : c'.graphics.renderArea.x = _ := e .paperX (by decide)
    have a2 : c'.graphics.renderArea.y = _ := e .paperY (by decide)
    have a3 : c'.graphics.renderArea.w = _ := e .printWidth (by decide)
    have a4 : c'.graphics.renderArea.h = _ := e .printHeight (by decide)
    generalize c'.graphics.renderArea = a at *
    cases a; simp only at a1 a2 a3 a4; rw [a1, a2, a3, a4]
  have e2 : c'.pageMode.renderArea = c.pageMode.renderArea := by
    have a1 : c'.pageMode.renderArea.x = _ := e .pageX (by decide)
    have a2 : c'.pageMode.renderArea.y = _ := e .pageY (by decide)
    have a3 : c'.pageMode.renderArea.w = _ := e .pageW (by decide)
    have a4 : c'.pageMode.renderArea.h = _ := e .pageH (by decide)
    generalize c'.pageMode.renderArea = a at *
    cases a; simp only at a1 a2 a3 a4; rw [a1, a2, a3, a4]
  have e3 : c'.pageMode.pageArea = _ := e .pageArea (by decide)
  have e4 : c'.pageMode.logicalArea = _ := e .logicalArea (by decide)
  have e5 : c'.default = _ := e .defaults (by decide)
  exact ⟨by rw [e1]; exact hc.paper, by rw [e2]; exact hc.pen, by rw [e3]; exact hc.page, by rw [e4]; exact hc.logical, by rw [e5]; exact hc.default⟩

theorem device {d : DeviceCommand} {c c' : Context} (h : deviceContext d c = .ok c') (hc : InU32 c) : InU32 c' := by
  have ho := deviceContext_only h
  cases d <;> try exact of_only ho (by simp only [deviceWrites]; decide) hc
  all_goals simp only [deviceContext] at h
  case beginPrint => exact hc.newline h
  case feedLine => exact hc.newline h
  case feed => exact hc.feed h
  case fullCut => exact hc.newline h
  case partialCut => exact hc.newline h
  case printPageMode =>
    simp only [bind_ok, pure_ok, addU32_ok, ok_ok] at h
    obtain ⟨y, ⟨hy, rfl⟩, rfl⟩ := h
    exact ⟨⟨(show 0 < U32 from by decide), hy, hc.paper.2.2⟩, hc.pen, hc.page, hc.logical, hc.default⟩
  case changePageArea =>
    simp only [bind_ok, pure_ok, ok_ok] at h
    obtain ⟨⟨p, x⟩, h1, rfl⟩ := h
    obtain ⟨a, b, d⟩ := logicalArea (p := { c.pageMode with previousDirection := c.pageMode.direction }) hc.pen hc.page hc.logical h1
    exact ⟨hc.paper, a, b, d, hc.default⟩
  case changePageModeDirection =>
    simp only [bind_ok, pure_ok, ok_ok] at h
    obtain ⟨⟨p, x⟩, h1, rfl⟩ := h
    obtain ⟨a, b, d⟩ := logicalArea hc.pen hc.page hc.logical h1
    exact ⟨hc.paper, a, b, d, hc.default⟩

theorem getPos_fits (data : List Byte) : getPos data < 65536 := by
  unfold getPos
  have h1 := (getOr data 0 0).toNat_lt
  have h2 := (getOr data 1 0).toNat_lt
  omega

theorem parseU16_fits (data : List Byte) (i : Nat) : parseU16 data i < 65536 := by
  unfold parseU16
  dsimp only
  have h1 : (getOr data i 0).toNat < 2 ^ 16 := Nat.lt_trans (getOr data i 0).toNat_lt (by decide)
  have h2 := (getOr data (i + 1) 0).toNat_lt
  refine Nat.or_lt_two_pow (n := 16) ?_ h1
  rw [Nat.shiftLeft_eq]
  omega

theorem setXAbsolute {c c' : Context} {x : Nat} (h : InU32 c) (hx : x < 65536) (e : c.setXAbsolute x = .ok c') : InU32 c' := by
  have hu : U32 = 4294967296 := rfl
  simp only [Context.setXAbsolute, bind_ok, divU_ok] at e
  obtain ⟨v, ⟨_, rfl⟩, e⟩ := e
  have hd : x / c.graphics.hMotionUnit.toNat < U32 := Nat.lt_of_le_of_lt (Nat.div_le_self _ _) (by omega)
  split at e
  · simp only [bind_ok, pure_ok] at e
    obtain ⟨p, hp, rfl⟩ := e
    unfold PageModeContext.setXAbsolute at hp
    obtain ⟨r1, r2, r3, r4⟩ := h.pen
    split at hp <;> simp only [bind_ok, pure_ok, addU32_ok] at hp
    · obtain ⟨_, ⟨a, rfl⟩, rfl⟩ := hp; exact ⟨h.paper, ⟨a, r2, r3, r4⟩, h.page, h.logical, h.default⟩
    · obtain ⟨_, ⟨a, rfl⟩, rfl⟩ := hp
      exact ⟨h.paper, ⟨Nat.lt_of_le_of_lt (Nat.sub_le _ _) a, r2, r3, r4⟩, h.page, h.logical, h.default⟩
    · subst hp; exact ⟨h.paper, ⟨r1, Nat.lt_of_le_of_lt (Nat.sub_le _ _) r4, r3, r4⟩, h.page, h.logical, h.default⟩
    · obtain ⟨_, ⟨a, rfl⟩, rfl⟩ := hp; exact ⟨h.paper, ⟨r1, a, r3, r4⟩, h.page, h.logical, h.default⟩
  · rw [pure_ok] at e; subst e; exact h.putX hd

theorem setYAbsolute {c c' : Context} {x : Nat} (h : InU32 c) (hx : x < 65536) (e : c.setYAbsolute x = .ok c') : InU32 c' := by
  have hu : U32 = 4294967296 := rfl
  simp only [Context.setYAbsolute, bind_ok, divU_ok] at e
  obtain ⟨v, ⟨_, rfl⟩, e⟩ := e
  have hd : x / c.graphics.vMotionUnit.toNat < U32 := Nat.lt_of_le_of_lt (Nat.div_le_self _ _) (by omega)
  split at e
  · simp only [bind_ok, pure_ok] at e
    obtain ⟨p, hp, rfl⟩ := e
    unfold PageModeContext.setYAbsolute at hp
    obtain ⟨r1, r2, r3, r4⟩ := h.pen
    split at hp <;> simp only [bind_ok, pure_ok, addU32_ok] at hp <;> obtain ⟨_, ⟨a, rfl⟩, rfl⟩ := hp
    · exact ⟨h.paper, ⟨r1, a, r3, r4⟩, h.page, h.logical, h.default⟩
    · exact ⟨h.paper, ⟨r1, a, r3, r4⟩, h.page, h.logical, h.default⟩
    · exact ⟨h.paper, ⟨a, r2, r3, r4⟩, h.page, h.logical, h.default⟩
    · exact ⟨h.paper, ⟨a, r2, r3, r4⟩, h.page, h.logical, h.default⟩
  · rw [pure_ok] at e; subst e; exact h.putY hd

theorem applyUnit {id data} {c c' : Context} (h : applyUnit id data c = .ok c') (hc : InU32 c) : InU32 c' := by
  have hu : U32 = 4294967296 := rfl
  have ho := applyUnit_only h
  cases id <;> try exact of_only ho (by simp only [applyWrites]; decide) hc
  all_goals simp only [Thermal.applyUnit] at h
  case «initialize» =>
    rw [pure_ok] at h; subst h
    unfold Context.reset
    rw [hc.default]
    refine ⟨?_, hc.pen, hc.page, hc.logical, rfl⟩
    show defaultSettings.graphics.renderArea.InU32
    unfold RenderArea.InU32; decide
  case offsetVerticalPos =>
    split at h
    · simp only [bind_ok, pure_ok, Context.offsetYRelative] at h
      obtain ⟨_, _, _, a, rfl⟩ := h
      exact hc.putY (addClamp_fits a)
    · rw [pure_ok] at h; subst h; exact hc
  case pageModePrintArea =>
    split at h
    · simp only [bind_ok, pure_ok, Context.setPageArea, divU_ok, calculatePageArea] at h
      obtain ⟨_, ⟨_, rfl⟩, _, ⟨_, rfl⟩, _, ⟨_, rfl⟩, _, ⟨_, rfl⟩, rfl⟩ := h
      have key : ∀ i n : Nat, parseU16 data i / n < U32 := fun i n =>
        Nat.lt_of_le_of_lt (Nat.div_le_self _ _) (by have := parseU16_fits data i; omega)
      exact ⟨hc.paper, hc.pen, hc.page, ⟨key _ _, key _ _, key _ _, key _ _⟩, hc.default⟩
    · rw [pure_ok] at h; subst h; exact hc
  case setHorizontalPos => exact hc.setXAbsolute (getPos_fits _) h
  case setVerticalPos =>
    split at h
    · exact hc.setYAbsolute (getPos_fits _) h
    · rw [pure_ok] at h; subst h; exact hc

theorem apply {ext : Ext} {cmd : Command} {c c' : Context} (h : applyContext ext cmd c = .ok c') (hc : InU32 c) : InU32 c' := by
  have ho := applyContext_only h
  by_cases hh : ∃ id, cmd.handler = .unit id
  · obtain ⟨id, hh⟩ := hh
    unfold applyContext at h
    rw [hh] at h
    exact applyUnit h hc
  · refine of_only ho ?_ hc
    have h2 : ∀ h : SubId, ∀ f ∈ [Setting.paperX, .paperY, .printWidth, .printHeight, .logicalArea, .pageX, .pageY, .pageW, .pageH, .pageArea, .defaults], f ∉ subWrites h := by
      intro h; cases h <;> decide
    unfold handlerWrites
    split
    · rename_i id hid; exact absurd ⟨id, hid⟩ hh
    · exact h2 _
    · decide
    · split
      · exact h2 _
      · simp
    · simp

end InU32
end Thermal
