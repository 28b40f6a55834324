import Verif.Spec.Web
import Verif.Props.Css
import Verif.Props.Sheets
import Verif.Proofs.Boxes
/-
The web pages of the HTML renderer, call by call.
-/
namespace Thermal
open Html Spec Renderer ImageRenderer

theorem cell_div {b s : Nat} (hb : 0 < b) : b * s / b = s := Nat.mul_div_cancel_left _ hb

theorem looksLike {html : Str} (hh : documentHead <+: html) {t : TextSpan} (ht : Outfit.Span t) :
    LooksLike (lookOf t) (spanStyle (styleSheet html) (classes t defaultColors)) := by
  have h := looks_as_asked hh ht
  have hc : 0 < t.baseCharacterWidth ∧ 0 < t.baseCharacterHeight := by
    have key : ∀ p ∈ cells, 0 < p.1 ∧ 0 < p.2 := by decide
    exact key _ ht.cell
  have e1 : (lookOf t).cell.1 / (lookOf t).base.1 = t.stretchWidth := by
    show t.characterWidth / t.baseCharacterWidth = _
    rw [ht.wide]; exact cell_div hc.1
  have e2 : (lookOf t).cell.2 / (lookOf t).base.2 = t.stretchHeight := by
    show t.characterHeight / t.baseCharacterHeight = _
    rw [ht.high]; exact cell_div hc.2
  have e3 : (lookOf t).cell.1 = (lookOf t).base.1 ↔ t.stretchWidth = 1 := by
    show t.characterWidth = t.baseCharacterWidth ↔ _
    rw [ht.wide]
    exact ⟨fun h => Nat.eq_of_mul_eq_mul_left hc.1 (by omega), fun h => by rw [h]; omega⟩
  have e4 : (lookOf t).cell.2 = (lookOf t).base.2 ↔ t.stretchHeight = 1 := by
    show t.characterHeight = t.baseCharacterHeight ↔ _
    rw [ht.high]
    exact ⟨fun h => Nat.eq_of_mul_eq_mul_left hc.2 (by omega), fun h => by rw [h]; omega⟩
  have e5 : (lookOf t).cell = (lookOf t).base ↔ t.stretchWidth = 1 ∧ t.stretchHeight = 1 := by
    rw [Prod.ext_iff, e3, e4]
  refine ⟨h.bold, h.italic, h.struck, ?_, h.color, h.background, h.fontA, h.fontB, ?_⟩
  · intro h0
    rw [h.underlined h0]
    simp [lookOf]
  · rw [e1, e2, e3, e4, e5]
    exact h.size

/-! ### Rows -/

/-- No line of text has an opening brace. -/
def NoBrace : Shown → Prop
  | .thing (.line l) => ∀ p ∈ l.pieces, '{' ∉ p.text
  | _ => True

/-- The row, as any document that begins with the head shows it; no opening brace in it. -/
structure RowOk (png : Png) (r : Row) (shown : List Shown) : Prop where
  shows_ : ∀ html, documentHead <+: html → RowShows png (styleSheet html) r.y r.height r.content shown
  clean : (∀ w h b, '{' ∉ png w h b) → (∀ s ∈ shown, NoBrace s) → '{' ∉ r.content

/-- All spans of a call have a place. -/
theorem pieces_of {off : Nat} {spans : List TextSpan} (hd : ∀ s ∈ spans, ∃ d, s.dimensions = some d) :
    (spans.filterMap (spanPiece off)).map (·.area.y) = spans.map (fun s => (s.dimensions.map (·.y)).getD 0) ∧
    (spans.filterMap (spanPiece off)).map (·.look.cell.2) = spans.map (·.characterHeight) := by
  induction spans with
  | nil => exact ⟨rfl, rfl⟩
  | cons s ss ih =>
    obtain ⟨d, e⟩ := hd s (by simp)
    obtain ⟨a, b⟩ := ih fun t ht => hd t (by simp [ht])
    have : spanPiece off s = some ⟨⟨off + d.x, d.y, d.w, d.h⟩, s.text, lookOf s⟩ := by unfold spanPiece; rw [e]; rfl
    rw [List.filterMap_cons_some this, List.map_cons, List.map_cons, List.map_cons, List.map_cons, a, b, e]
    exact ⟨rfl, rfl⟩

theorem tags_of {off high : Nat} {html : Str} (hh : documentHead <+: html) {spans : List TextSpan} (hd : ∀ s ∈ spans, ∃ d, s.dimensions = some d)
    (ho : ∀ s ∈ spans, Outfit.Span s) :
    List.Forall₂ (fun p tag => ∃ classes, tag = Piece.tag high p classes ∧ LooksLike p.look (spanStyle (styleSheet html) classes))
      (spans.filterMap (spanPiece off)) (spans.map (spanTag off high defaultColors)) := by
  induction spans with
  | nil => exact .nil
  | cons s ss ih =>
    obtain ⟨d, e⟩ := hd s (by simp)
    have : spanPiece off s = some ⟨⟨off + d.x, d.y, d.w, d.h⟩, s.text, lookOf s⟩ := by unfold spanPiece; rw [e]; rfl
    rw [List.filterMap_cons_some this, List.map_cons]
    refine .cons ⟨classes s defaultColors, ?_, looksLike hh (ho s (by simp))⟩ (ih (fun t ht => hd t (by simp [ht])) fun t ht => ho t (by simp [ht]))
    unfold spanTag Piece.tag
    rw [e]; rfl

theorem text_row {png : Png} {c : Context} (hc : OnPaper c) {spans : List TextSpan} {off high : Nat} {j} (hd : ∀ s ∈ spans, ∃ d, s.dimensions = some d)
    (hu : ∀ s ∈ spans, InLine high s) (ho : ∀ s ∈ spans, Outfit.Span s) {row : Row}
    (h : spansToHtml spans off high c.graphics.renderColors = .ok row) :
    RowOk png row ((callThings (c, .text spans off high j)).map .thing) := by
  obtain ⟨a, b, e⟩ := spansToHtml_ok hu h
  obtain ⟨p1, p2⟩ := pieces_of (off := off) hd
  rw [hc.colors] at e
  constructor
  · intro html hh
    show RowShows png _ _ _ _ [.thing (.line ⟨high, spans.filterMap (spanPiece off)⟩)]
    refine ⟨?_, ?_, _, e, tags_of hh hd ho⟩
    · dsimp only; rw [p1]; exact a
    · dsimp only; rw [p2]; exact b
  · intro _ hn
    have hn : ∀ p ∈ spans.filterMap (spanPiece off), '{' ∉ p.text := hn (.thing (.line ⟨high, spans.filterMap (spanPiece off)⟩)) (List.mem_singleton.2 rfl)
    rw [e]
    refine intercalate_clean (by decide) fun k hk => ?_
    obtain ⟨t, hm, rfl⟩ := List.mem_map.1 hk
    obtain ⟨d, ed⟩ := hd t hm
    refine spanTag_clean _ _ _ _ (hn ⟨⟨off + d.x, d.y, d.w, d.h⟩, t.text, lookOf t⟩ (List.mem_filterMap.2 ⟨t, hm, ?_⟩))
    unfold spanPiece; rw [ed]; rfl

theorem image_row {png : Png} {c : Context} {i : Image} {row : Row} (h : encodeImage png i = .ok row) :
    RowOk png row ((callThings (c, .image i)).map .thing) := by
  obtain ⟨a, b, e, _⟩ := encodeImage_ok h
  exact ⟨fun html hh => ⟨a, b, i.pixels, rfl, e⟩, fun hp _ => by rw [e]; exact imgTag_clean _ _ (hp _ _ _)⟩

theorem boxes_row {png : Png} {c : Context} {gs : List Rectangle} (hu : ∀ g ∈ gs, g.x < U32 ∧ g.y < U32) {row : Row}
    (h : graphicsToSvg gs = .ok row) : RowOk png row ((callThings (c, .graphics gs)).map .thing) := by
  obtain ⟨a, _⟩ := graphics_presents (png := png) (c := c) hu h
  cases gs with
  | nil => exact ⟨fun html hh => a rfl, fun _ _ => by rw [(a rfl).2.2]; simp⟩
  | cons g gs =>
    obtain ⟨l, w, rs, e, f⟩ := C64_svg (by simp) hu h
    refine ⟨fun html hh => ⟨l, w, g :: gs, rs, ?_, e, f⟩, fun _ _ => by rw [e]; exact svg_clean _ _ _ _⟩
    simp only [callThings, List.map_cons, List.map_map]
    rfl

open Canvas (PageAt)

theorem copy_dots {c : Canvas} {p : Page} (h : PageAt c p) : c.bytes = (List.range (p.w * p.h)).map fun i => p.dots (i % p.w) (i / p.w) := by
  have hs := h.rect.shows
  rw [h.width, h.height] at hs
  obtain ⟨hl, hs⟩ := hs
  refine List.ext_getElem? fun i => ?_
  by_cases hi : i < p.w * p.h
  · have hw : 0 < p.w := by
      rcases Nat.eq_zero_or_pos p.w with h0 | h0
      · rw [h0, Nat.zero_mul] at hi; omega
      · exact h0
    have h1 : i % p.w < p.w := Nat.mod_lt _ hw
    have h2 : i / p.w < p.h := Nat.div_lt_of_lt_mul hi
    have := hs (i % p.w) (i / p.w) h1 h2
    rw [Nat.mul_comm (i / p.w), Nat.div_add_mod] at this
    rw [this, List.getElem?_map, List.getElem?_range hi, h.dots _ _ h1 h2]
    rfl
  · rw [List.getElem?_eq_none (by omega), List.getElem?_eq_none (by simpa using Nat.le_of_not_lt hi)]

theorem page_row {png : Png} {c : Canvas} {p : Page} (hv : PageAt c p) {x y : Nat} {row : Row}
    (h : encodeImage png ⟨c.bytes, x, y, c.width, c.getHeight, .block, false⟩ = .ok row) : RowOk png row [.page x y p] := by
  obtain ⟨a, b, e, _⟩ := encodeImage_ok h
  dsimp only at a b e
  rw [hv.height] at b
  rw [hv.width, hv.height, copy_dots hv] at e
  exact ⟨fun html hh => ⟨a, b, e⟩, fun hp _ => by rw [e]; exact imgTag_clean _ _ (hp _ _ _)⟩

/-! ### Documents -/

/-- The rows pushed so far show what is on the document. -/
def HtmlRenderer.Shows (png : Png) (B : Prop) (h : HtmlRenderer) (sheet : List Shown) : Prop :=
  ∃ rows : List (Row × List Shown), (∀ r ∈ rows, RowOk png r.1 r.2 ∧ (r.2 = [] → B)) ∧ rows.flatMap (·.2) = sheet ∧
    ∃ p : Canvas, HtmlRenderer.pushRows (rows.map (·.1)) ⟨0, [], p, h.debug⟩ = .ok ⟨h.lastY, h.content, p, h.debug⟩

namespace HtmlRenderer

theorem Shows.push {png : Png} {B : Prop} {h h' : HtmlRenderer} {sheet : List Shown} (hs : h.Shows png B sheet) {row : Row} {new : List Shown}
    (hx : RowOk png row new) (hB : new = [] → B) (e : pushRow h row = .ok h') : h'.Shows png B (sheet ++ new) := by
  obtain ⟨rows, a, b, p, c⟩ := hs
  obtain ⟨e1, e2⟩ := pushRow_page e p h.debug
  refine ⟨rows ++ [(row, new)], ?_, by simp [b], p, ?_⟩
  · intro r hr
    rcases List.mem_append.1 hr with hr | hr
    · exact a r hr
    · rw [List.mem_singleton.1 hr]; exact ⟨hx, hB⟩
  · rw [e2, List.map_append]; exact pushRows_snoc c e1

theorem Shows.begin {png : Png} {B : Prop} {h h' : HtmlRenderer} {c : Context} (e : h.beginRender c = .ok h') : h'.Shows png B [.space c.getY] := by
  simp only [beginRender, pushRow, bind_ok, pure_ok] at e
  obtain ⟨y, e1, rfl⟩ := e
  refine ⟨[(⟨0, c.getY, []⟩, [.space c.getY])], ?_, rfl, Canvas.new 0, ?_⟩
  · intro r hr
    rw [List.mem_singleton.1 hr]
    exact ⟨⟨fun html hh => ⟨rfl, rfl, rfl⟩, fun _ _ => List.not_mem_nil⟩, by simp⟩
  · simp only [List.map_cons, List.map_nil, pushRows, pushRow, bind_ok, pure_ok, ok_ok]
    refine ⟨_, ⟨y, e1, rfl⟩, ?_⟩
    simp

end HtmlRenderer

/-- Where the rows pushed so far end. -/
theorem pushRows_end {rows : List Row} {r r' : HtmlRenderer} (h : HtmlRenderer.pushRows rows r = .ok r') :
    r'.lastY = (rows.getLast?.map fun r => r.y + r.height).getD r.lastY := by
  induction rows generalizing r with
  | nil => simp only [HtmlRenderer.pushRows, ok_ok] at h; subst h; rfl
  | cons row rows ih =>
    simp only [HtmlRenderer.pushRows, bind_ok] at h
    obtain ⟨r1, h1, h2⟩ := h
    rw [ih h2, (HtmlRenderer.pushRow_ok h1).2.1]
    cases rows with
    | nil => rfl
    | cons a as =>
      rw [List.getLast?_cons_cons]
      cases hl : (a :: as).getLast? with
      | none => simp at hl
      | some x => rfl

theorem receiptStyle_eq {c : Context} (hc : OnPaper c) (pad : Nat) : HtmlRenderer.receiptStyle c pad =
    "width: 649px; padding-left: 20px; padding-right: 20px; padding-bottom: ".toList ++ inDecimal pad ++ "px;".toList := by
  unfold HtmlRenderer.receiptStyle
  rw [hc.paper, hc.edge.1, hc.edge.2]
  have : lit "width: " ++ num 649 ++ lit "px; padding-left: " ++ num 20 ++ lit "px; padding-right: " ++ num 20 ++ lit "px; padding-bottom: " =
    "width: 649px; padding-left: 20px; padding-right: 20px; padding-bottom: ".toList := by decide +kernel
  rw [this, num_inDecimal]; rfl

/-- The end of a document. -/
theorem HtmlRenderer.Shows.end {png : Png} {B : Prop} {h : HtmlRenderer} {sheet : List Shown} (hs : h.Shows png B sheet) {c : Context} (hc : OnPaper c)
    (hpng : ∀ w h b, '{' ∉ png w h b) (hn : ∀ s ∈ sheet, NoBrace s) : IsWebPage png B documentHead (h.endRender c) ⟨sheet, c.pageMode.enabled, c.graphics.renderArea.y⟩ := by
  obtain ⟨rows, a, rfl, p, b⟩ := hs
  obtain ⟨bs, e1, e2, e3⟩ := HtmlRenderer.pushRows_ok b 0
  dsimp only at e1 e3
  rw [List.nil_append] at e1
  have e4 : h.content.flatten = bs.flatMap Block.html := by rw [e1, List.flatMap_def]
  have hb : '{' ∉ h.content.flatten := by
    rw [e4, List.mem_flatMap]
    rintro ⟨blk, hb, hm⟩
    refine block_clean (b := blk) ?_ hm
    have : (blk.height, blk.inner) ∈ (rows.map (·.1)).map (fun r => (r.height, r.content)) := by
      rw [← e2]; exact List.mem_map.2 ⟨blk, hb, rfl⟩
    obtain ⟨r, hr, e⟩ := List.mem_map.1 this
    obtain ⟨q, hq, rfl⟩ := List.mem_map.1 hr
    have e' : blk.inner = q.1.content := by simp only [Prod.mk.injEq] at e; exact e.2.symm
    rw [e']
    exact (a q hq).1.clean hpng fun s hs => hn s (List.mem_flatMap.2 ⟨q, hq, hs⟩)
  have eo : h.endRender c = documentHead ++ "\"".toList ++ HtmlRenderer.receiptStyle c (c.getY - h.lastY) ++ "\"><article>".toList ++
      bs.flatMap Block.html ++ "</article></section></main>\n</body>\n</html>".toList := by
    rw [HtmlRenderer.endRender_eq hc.colors _ hb, e4]
    rw [show "\"><article>".toList = '"' :: lit "><article>" from by decide +kernel,
      show "\"".toList = ['"'] from by decide +kernel]
    unfold lit
    simp only [List.append_assoc, List.cons_append, List.nil_append]
  refine ⟨c.getY - h.lastY, rows.map fun r => ⟨r.1.y, r.1.height, r.1.content, r.2⟩, bs, ?_, ?_, ?_, ?_, ?_, ?_, ?_⟩
  · rw [eo, receiptStyle_eq hc]
  · intro hm
    dsimp only at hm
    rw [pushRows_end b]
    unfold WebRow.lastEnd Context.getY
    rw [hm, List.getLast?_map, List.getLast?_map]
    cases rows.getLast? <;> rfl
  · rw [List.flatMap_map]
  · rintro ⟨r, hr, e⟩
    obtain ⟨q, hq, rfl⟩ := List.mem_map.1 hr
    exact (a q hq).2 e
  · intro r hr
    obtain ⟨q, hq, rfl⟩ := List.mem_map.1 hr
    refine (a q hq).1.shows_ _ ?_
    rw [eo]
    simp only [List.append_assoc]
    exact List.prefix_append _ _
  · rw [e2, List.map_map, List.map_map]; rfl
  · rw [List.map_map]
    have : ((fun r : WebRow => (r.y, r.height)) ∘ fun r : Row × List Shown => (⟨r.1.y, r.1.height, r.1.content, r.2⟩ : WebRow)) =
      fun r : Row × List Shown => (r.1.y, r.1.height) := rfl
    rw [this, List.zip_map_left, List.map_map]
    rw [List.map_map, List.zip_map_left, List.map_map] at e3
    exact e3

/-- The renderer stands where the reference stands. -/
structure WebAt (png : Png) (B : Prop) (s : HtmlRenderer × List Str) (t : Web) : Prop where
  calm : s.1.debug = {}
  page : PageAt s.1.page t.page
  sheet : s.1.Shows png B t.sheet
  done : List.Forall₂ (IsWebPage png B documentHead) s.2 t.done

theorem WebAt.begin {png : Png} {B : Prop} {s s' : HtmlRenderer} {outs : List Str} {done : List WebDoc} (hcalm : s.debug = {})
    (hdone : List.Forall₂ (IsWebPage png B documentHead) outs done) {c : Context} (hc : OnPaper c) (e : s.beginRender c = .ok s') :
    WebAt png B (s', outs) ⟨.empty, [.space c.getY], done⟩ := by
  have hv := HtmlRenderer.Shows.begin (png := png) (B := B) e
  simp only [HtmlRenderer.beginRender, HtmlRenderer.pushRow, bind_ok, pure_ok] at e
  obtain ⟨y, e1, rfl⟩ := e
  refine ⟨hcalm, ?_, hv, hdone⟩
  have hcol : c.graphics.renderColors.paperColor = ⟨255, 255, 255, 255⟩ := by rw [hc.colors]; rfl
  exact ⟨⟨0, rfl⟩, by simp [Canvas.Opaque, Canvas.setWidth], hcol, rfl, hcalm, rfl, rfl, fun x y hx => absurd hx (Nat.not_lt_zero _)⟩

/-- What a call does. -/
def Web.call (gs : Canvas.Glyphs) (s : Web) (x : Context × Call) : Web :=
  match x.2 with
  | .beginRender => ⟨.empty, [.space x.1.getY], s.done⟩
  | .endRender => { s with done := s.done ++ [⟨s.sheet, x.1.pageMode.enabled, x.1.graphics.renderArea.y⟩] }
  | .pageBegin => { s with page := .empty }
  | .pageAreaChanged r w h => { s with page := ((s.page.turned r).widened w).lengthened h }
  | .renderPage =>
    let p := s.page.turned (toDirection x.1.pageMode.direction)
    { s with
      page := p.turned (Spec.Rotation.back (toDirection x.1.pageMode.direction))
      sheet := s.sheet ++ [.page x.1.graphics.renderArea.x x.1.graphics.renderArea.y p] }
  | call =>
    if x.1.pageMode.enabled then { s with page := pageMedium.call gs s.page x.1.text.color call }
    else { s with sheet := s.sheet ++ (callThings x).map .thing }

theorem webPuts_page (gs : Canvas.Glyphs) (ts : List Thing) (s : Web) :
    (ts.map (Act.put true)).foldl (Web.step gs) s = { s with page := ts.foldl (Thing.paint pageMedium gs) s.page } := by
  induction ts generalizing s with
  | nil => rfl
  | cons t ts ih => rw [List.map_cons, List.foldl_cons, ih]; rfl

theorem webPuts_paper (gs : Canvas.Glyphs) (ts : List Thing) (s : Web) :
    (ts.map (Act.put false)).foldl (Web.step gs) s = { s with sheet := s.sheet ++ ts.map .thing } := by
  induction ts generalizing s with
  | nil => simp
  | cons t ts ih => rw [List.map_cons, List.foldl_cons, ih]; simp [Web.step]

theorem web_step (gs : Canvas.Glyphs) (s : Web) (x : Context × Call) : Web.call gs s x = (callActs x).foldl (Web.step gs) s := by
  have key : ∀ y : Context × Call, (if y.1.pageMode.enabled then { s with page := pageMedium.call gs s.page y.1.text.color y.2 }
      else { s with sheet := s.sheet ++ (callThings y).map .thing }) =
      ((callThings y).map (Act.put y.1.pageMode.enabled)).foldl (Web.step gs) s := by
    intro y
    cases he : y.1.pageMode.enabled
    · rw [webPuts_paper]; rfl
    · rw [webPuts_page]
      simp only [call_things _ page_ink, if_true]
  obtain ⟨c, x⟩ := x
  cases x
  case text => exact key _
  case graphics => exact key _
  case image => exact key _
  case pageEnd => exact key (c, .pageEnd)
  case device d => exact key (c, .device d)
  all_goals rfl

theorem web_steps (gs : Canvas.Glyphs) (xs : List (Context × Call)) (s : Web) :
    xs.foldl (Web.call gs) s = (xs.flatMap fun x => callActs x).foldl (Web.step gs) s := by
  induction xs generalizing s with
  | nil => rfl
  | cons x xs ih => rw [List.foldl_cons, ih, List.flatMap_cons, List.foldl_append, web_step]

theorem web_mem {gs : Canvas.Glyphs} {s : Web} {x : Context × Call} {e : Shown} (h : e ∈ (Web.call gs s x).sheet) :
    e ∈ s.sheet ∨ ((∃ a b p, e = .page a b p) ∨ ∃ h, e = .space h) ∨ (x.1.pageMode.enabled = false ∧ ∃ t ∈ callThings x, e = .thing t) := by
  unfold Web.call at h
  split at h
  · exact .inr (.inl (.inr ⟨_, List.mem_singleton.1 h⟩))
  · exact .inl h
  · exact .inl h
  · exact .inl h
  · dsimp only at h
    rcases List.mem_append.1 h with h | h
    · exact .inl h
    · exact .inr (.inl (.inl ⟨_, _, _, List.mem_singleton.1 h⟩))
  · split at h
    · exact .inl h
    · rename_i hm
      dsimp only at h
      rcases List.mem_append.1 h with h | h
      · exact .inl h
      · obtain ⟨t, ht, rfl⟩ := List.mem_map.1 h
        exact .inr (.inr ⟨by simpa using hm, t, ht, rfl⟩)

/-- What holds of all calls of a job. -/
structure WebCall (B : Prop) (x : Context × Call) : Prop where
  paper : OnPaper x.1
  range : x.2.InRange
  outfit : x.2.Wears Outfit.Span
  placed : ∀ t ∈ x.2.spans, ∃ d, t.dimensions = some d
  blank : x.2 = .graphics [] → B
  noBrace : x.1.pageMode.enabled = false → ∀ t ∈ callThings x, NoBrace (.thing t)

/-- One call. -/
theorem WebAt.perform {gs : Canvas.Glyphs} {png : Png} {B : Prop} (hpng : ∀ w h b, '{' ∉ png w h b) {x : Context × Call}
    {s s' : HtmlRenderer × List Str} {t : Web} (hs : WebAt png B s t) (hn : ∀ e ∈ t.sheet, NoBrace e) (hx : WebCall B x)
    (h : Call.perform (htmlRenderer gs png) x s = .ok s') : WebAt png B s' (Web.call gs t x) := by
  obtain ⟨c, x⟩ := x
  obtain ⟨s, outs⟩ := s
  obtain ⟨hcalm, hpage, hsheet, hdone⟩ := hs
  obtain ⟨xp, xr, xo, xd, xb, _⟩ := hx
  dsimp only at *
  cases x <;> simp only [Call.perform, htmlRenderer, bind_ok, ok_ok] at h
  case beginRender =>
    obtain ⟨u, e, rfl⟩ := h
    exact WebAt.begin hcalm hdone xp e
  case endRender =>
    obtain ⟨⟨u, o⟩, e, rfl⟩ := h
    simp only [Prod.mk.injEq] at e
    obtain ⟨rfl, rfl⟩ := e
    exact ⟨hcalm, hpage, hsheet, List.rel_append hdone (.cons (hsheet.end xp hpng hn) .nil)⟩
  case pageBegin =>
    obtain ⟨u, rfl, rfl⟩ := h
    exact ⟨hcalm, Canvas.PageAt.cleared hpage.paper hpage.locked hpage.calm, hsheet, hdone⟩
  case pageEnd =>
    obtain ⟨u, rfl, rfl⟩ := h
    simp only [Web.call, Medium.call, callThings, List.map_nil, List.append_nil, ite_self]
    exact ⟨hcalm, hpage, hsheet, hdone⟩
  case device =>
    obtain ⟨u, rfl, rfl⟩ := h
    simp only [Web.call, Medium.call, callThings, List.map_nil, List.append_nil, ite_self]
    exact ⟨hcalm, hpage, hsheet, hdone⟩
  case pageAreaChanged rot w hh =>
    obtain ⟨u, h1, rfl⟩ := h
    simp only [HtmlRenderer.pageAreaChanged, bind_ok, pure_ok] at h1
    obtain ⟨p1, e1, p2, e2, p3, e3, rfl⟩ := h1
    exact ⟨hcalm, Canvas.growHeight_page (Canvas.growWidth_page (Canvas.rotate_page hpage e1) e2) e3, hsheet, hdone⟩
  case renderPage =>
    obtain ⟨u, h1, rfl⟩ := h
    simp only [HtmlRenderer.renderPage, bind_ok, Canvas.copy] at h1
    obtain ⟨p1, e1, p2, e2, row, e3, e4⟩ := h1
    rw [toDirection_eq] at e1
    rw [back_eq] at e2
    have v1 := Canvas.rotate_page hpage e1
    have v2 := Canvas.rotate_page v1 e2
    have hk := HtmlRenderer.Shows.push (h := { s with page := p2 }) (sheet := t.sheet) hsheet (page_row v1 e3) (by simp) e4
    have e5 := (HtmlRenderer.pushRow_ok e4).2.2
    refine ⟨?_, ?_, hk, hdone⟩
    · exact (HtmlRenderer.pushRow_page e4 p2 {}).2.trans hcalm
    · rw [e5]; exact v2
  case graphics rs =>
    obtain ⟨u, h1, rfl⟩ := h
    unfold HtmlRenderer.renderGraphics at h1
    unfold Web.call
    dsimp only
    split at h1
    · rename_i he
      rw [if_pos he]
      simp only [bind_ok, pure_ok] at h1
      obtain ⟨p, h1, rfl⟩ := h1
      exact ⟨hcalm, Canvas.page_prints.rects hpage h1, hsheet, hdone⟩
    · rename_i he
      rw [if_neg he]
      simp only [bind_ok] at h1
      obtain ⟨row, e1, e2⟩ := h1
      refine ⟨(HtmlRenderer.pushRow_page e2 s.page {}).2.trans hcalm, ?_, hsheet.push (boxes_row xr e1) (fun e => xb (by simpa [callThings] using e)) e2, hdone⟩
      rw [(HtmlRenderer.pushRow_ok e2).2.2]; exact hpage
  case image i =>
    obtain ⟨u, h1, rfl⟩ := h
    unfold HtmlRenderer.renderImage at h1
    unfold Web.call
    dsimp only
    split at h1
    · rename_i he
      rw [if_pos he]
      simp only [bind_ok, pure_ok] at h1
      obtain ⟨p, h1, rfl⟩ := h1
      exact ⟨hcalm, Canvas.page_prints.image hpage h1, hsheet, hdone⟩
    · rename_i he
      rw [if_neg he]
      simp only [bind_ok] at h1
      obtain ⟨row, e1, e2⟩ := h1
      refine ⟨(HtmlRenderer.pushRow_page e2 s.page {}).2.trans hcalm, ?_, hsheet.push (image_row e1) (by simp [callThings]) e2, hdone⟩
      rw [(HtmlRenderer.pushRow_ok e2).2.2]; exact hpage
  case text l xo' mh j =>
    obtain ⟨u, h1, rfl⟩ := h
    unfold HtmlRenderer.renderText at h1
    unfold Web.call
    dsimp only
    split at h1
    · rename_i he
      rw [if_pos he]
      simp only [bind_ok, pure_ok] at h1
      obtain ⟨p, h1, rfl⟩ := h1
      exact ⟨hcalm, Canvas.page_prints.spans xo.1 (by have := lineHeight_le xo.1; rw [← xo.2] at this; omega) hpage h1, hsheet, hdone⟩
    · rename_i he
      rw [if_neg he]
      simp only [bind_ok] at h1
      obtain ⟨row, e1, e2⟩ := h1
      refine ⟨(HtmlRenderer.pushRow_page e2 s.page {}).2.trans hcalm, ?_, hsheet.push (text_row xp xd xr xo.1 e1) (fun e => absurd e (List.cons_ne_nil _ _)) e2, hdone⟩
      rw [(HtmlRenderer.pushRow_ok e2).2.2]; exact hpage

theorem WebAt.replay {gs : Canvas.Glyphs} {png : Png} {B : Prop} (hpng : ∀ w h b, '{' ∉ png w h b) {xs : List (Context × Call)}
    {s s' : HtmlRenderer × List Str} {t : Web} (hs : WebAt png B s t) (hn : ∀ e ∈ t.sheet, NoBrace e) (hx : ∀ x ∈ xs, WebCall B x)
    (h : Thermal.replay (htmlRenderer gs png) xs s = .ok s') : WebAt png B s' (xs.foldl (Web.call gs) t) := by
  induction xs generalizing s t with
  | nil => simp only [Thermal.replay, ok_ok] at h; subst h; exact hs
  | cons x xs ih =>
    simp only [Thermal.replay, bind_ok] at h
    obtain ⟨s1, h1, h2⟩ := h
    refine ih (hs.perform hpng hn (hx x (by simp)) h1) ?_ (fun y hy => hx y (by simp [hy])) h2
    intro e he
    rcases web_mem he with he | (⟨_, _, _, rfl⟩ | ⟨_, rfl⟩) | ⟨hm, th, ht, rfl⟩
    · exact hn e he
    · trivial
    · trivial
    · exact (hx x (by simp)).noBrace hm th ht

end Thermal
