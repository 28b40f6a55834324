import Verif.Proofs.Web
import Verif.Props.Dots
import Verif.Props.HtmlText
/-
C86: from bytes to a web page.
-/
namespace Thermal
open Html Spec Renderer

variable {ext : Ext}

/-- C86, call by call. -/
theorem web_pages (gs : Canvas.Glyphs) (png : Png) {B : Prop} (hpng : ∀ w h b, '{' ∉ png w h b) {bytes : List Byte} {outs errs r}
    (h : render (htmlRenderer gs png) ext (Renderer.new HtmlRenderer.new) bytes = .ok (outs, errs, r)) {units errs'} {t : Recording}
    (h' : render recorder ext (Renderer.new []) bytes = .ok (units, errs', t))
    (hb : (∃ x ∈ t.child, x.2 = .graphics []) → B) (hn : ∀ a ∈ t.child.flatMap fun x => callActs x, '{' ∉ a.paperText) :
    List.Forall₂ (IsWebPage png B documentHead) outs (webSheets gs (t.child.flatMap fun x => callActs x)) := by
  obtain ⟨u, e, t', a1, a2, _⟩ := C68_same_calls _ ext _ bytes outs errs r h
  rw [h', ok_ok] at a1
  simp only [Prod.mk.injEq] at a1
  obtain ⟨_, _, rfl⟩ := a1
  have hctx : ∀ x ∈ t.child, OnPaper x.1 := by
    have a1' := h'
    simp only [render, bind_ok, pure_ok] at a1'
    obtain ⟨cs, h1, r1, h2, h3⟩ := a1'
    simp only [Prod.mk.injEq] at h3
    obtain ⟨rfl, rfl, rfl⟩ := h3
    exact (processCommands_always (J := OnPaper) OnPaper.pen OnPaper.device OnPaper.apply (r := Renderer.new []) ⟨OnPaper.start, by simp [Renderer.new]⟩ h2).2
  have hcall : ∀ x ∈ t.child, WebCall B x := by
    intro x hx
    refine ⟨hctx x hx, render_inRange h' x hx, render_outfit h' x hx, ?_, fun e => hb ⟨x, hx, e⟩, ?_⟩
    · have hp := render_positioned h' x hx
      obtain ⟨c, k⟩ := x
      intro s hs
      cases k
      case text l o m j =>
        obtain ⟨d, e, _⟩ := hp s hs
        exact ⟨d, e⟩
      all_goals cases hs
    · intro hm th ht
      cases th with
      | line l =>
        intro p hp hb
        refine hn (.put false (.line l)) (List.mem_flatMap.2 ⟨x, hx, ?_⟩) (List.mem_flatMap.2 ⟨p, hp, hb⟩)
        obtain ⟨c, k⟩ := x
        dsimp only at hm
        cases k <;> simp only [callThings, List.not_mem_nil] at ht <;>
          (simp only [callActs, hm]; exact List.mem_map.2 ⟨_, ht, rfl⟩)
      | box => trivial
      | picture => trivial
  obtain ⟨c1, calls, ec⟩ := first_calls h'
  unfold webSheets
  rw [← web_steps]
  rw [ec] at a2 hcall ⊢
  simp only [replay, bind_ok, Call.perform, htmlRenderer, ok_ok] at a2
  obtain ⟨s1, ⟨_, rfl, rfl⟩, s2, ⟨s3, e3, rfl⟩, a2⟩ := a2
  have hat := WebAt.begin (png := png) (B := B) (outs := []) (done := []) rfl .nil (hcall (c1, .beginRender) (by simp)).paper e3
  have := hat.replay hpng (xs := calls) (by simp [NoBrace]) (fun x hx => hcall x (by simp [hx])) a2
  rw [List.foldl_cons, List.foldl_cons]
  exact this.done

/-- C86. From bytes to a web page: the HTML documents of a stream of items are, one for one, those that show what the reference
printer prints for these items: row by row in order, every line of text, box, picture and page of page mode at its place, every piece of
text looking as it should by the document's own style sheet, pictures and pages dot by dot, and space down to where printing ended.  Rows are shifted down by as much as the
rows before them overlap.  There are no other rows, but for symbols without any dark parts.  Text must not contain `{` (`C74_substituted`). -/
theorem C86_web_pages : ∃ head : Str, ∀ (gs : Canvas.Glyphs) (png : Png) (_ : ∀ w h b, '{' ∉ png w h b) (ext : Ext) (items : List Item)
    (_ : ∀ it ∈ items, it.WF) (_ : separated items) (_ : ∀ it ∈ items.getLast?, it.endSafe) (_ : Press.initial.fairs ext items)
    (_ : ∀ a ∈ printedActs ext items, '{' ∉ a.paperText) (outs errs r),
    render (htmlRenderer gs png) ext (Renderer.new HtmlRenderer.new) (streamBytes items) = .ok (outs, errs, r) →
    List.Forall₂ (IsWebPage png (∃ it ∈ items, it.isSymbol) head) outs (webSheets gs (printedActs ext items)) := by
  refine ⟨documentHead, ?_⟩
  intro gs png hpng ext items hw hs hl hf hn outs errs r h
  obtain ⟨u, e, t, a1, _, _⟩ := C68_same_calls _ ext _ _ outs errs r h
  have e81 := C81_printer hw hs hl hf a1
  rw [← e81] at hn ⊢
  refine web_pages gs png hpng h a1 ?_ hn
  rintro ⟨x, hx, e⟩
  by_contra hns
  exact stream_boxless hw hs hl hf (fun it hit hsy => hns ⟨it, hit, hsy⟩) a1 x hx [] e

/-- What is on a document, in short. -/
def Shown.outline : Shown → String × Nat × Nat
  | .space h => ("space", 0, h)
  | .thing (.line l) => ("line", (l.pieces.map (·.area.x)).headD 0, (l.pieces.map (·.area.y)).headD 0)
  | .thing (.box _ r) => ("box", r.x, r.y)
  | .thing (.picture x y _ _) => ("picture", x, y)
  | .page x y _ => ("page", x, y)

/-- Bold "A", a raster image, then a page with the letter "B", which is printed, then "C". -/
def webItems : List Item :=
  [.fixed setEmphasisCmd [1], .text [65], .fixed linefeedCmd [], .raster 0 1 2 [0xA5, 0xF0],
   .fixed setPageModeCmd [], .fixed pageModePrintAreaCmd [4, 0, 2, 0, 40, 0, 30, 0], .text [66], .fixed linefeedCmd [], .fixed formfeedCmd [],
   .text [67], .fixed linefeedCmd []]

/-- C86, hypotheses met: the items are well-formed and fair, have no braces, and the HTML renderer renders them. -/
example : (∀ it ∈ webItems, it.WF) ∧ Press.initial.fairs noExt webItems ∧
    (∀ a ∈ printedActs noExt webItems, '{' ∉ a.paperText) ∧
    (webSheets dotty (printedActs noExt webItems)).map (fun d => (d.shown.map Shown.outline, d.onPage, d.y)) =
      [([("space", 0, 108), ("line", 0, 108), ("picture", 0, 132), ("page", 0, 134), ("line", 0, 166)], false, 190)] := by
  refine ⟨?_, ?_, ?_, ?_⟩ <;> decide +kernel

example : separated webItems ∧ ∀ it ∈ webItems.getLast?, it.endSafe := by
  simp [webItems, separated, Item.isText, Item.endSafe]

/-- The HTML renderer renders them. -/
example : ∃ outs errs r, render (htmlRenderer dotty noPng) noExt (Renderer.new HtmlRenderer.new) (streamBytes webItems) = .ok (outs, errs, r) ∧
    outs.length = 1 := by
  have : ((render (htmlRenderer dotty noPng) noExt (Renderer.new HtmlRenderer.new) (streamBytes webItems)).toOption.map fun x => x.1.length) = some 1 := by
    decide +kernel
  generalize render (htmlRenderer dotty noPng) noExt (Renderer.new HtmlRenderer.new) (streamBytes webItems) = x at this
  cases x with
  | error e => cases this
  | ok x => exact ⟨x.1, x.2.1, x.2.2, rfl, Option.some.inj this⟩

/-- The space below the last row is lost when a job ends in page mode: a feed of 100 dots (`ESC J 100`) is shown, but not when
`ESC L` follows. -/
theorem C86_space_lost : ∃ before after : Str,
    (render (htmlRenderer dotty noPng) noExt (Renderer.new HtmlRenderer.new) [27, 74, 100]).toOption.map (·.1) =
      some [before ++ "padding-bottom: 100px".toList ++ after] ∧
    (render (htmlRenderer dotty noPng) noExt (Renderer.new HtmlRenderer.new) [27, 74, 100, 27, 76]).toOption.map (·.1) =
      some [before ++ "padding-bottom: 0px".toList ++ after] :=
  ⟨documentHead ++ "\"width: 649px; padding-left: 20px; padding-right: 20px; ".toList,
    ";\"><article><p style='height: 108px; margin-top: 0px'></p></article></section></main>\n</body>\n</html>".toList,
    by decide +kernel, by decide +kernel⟩

/-- A form feed ends a document, but what it shows is shown again by the next one: "A", a form feed, "B". -/
theorem C86_shown_again : ∃ items : List Item, (∀ it ∈ items, it.WF) ∧ separated items ∧ (∀ it ∈ items.getLast?, it.endSafe) ∧
    Press.initial.fairs noExt items ∧ (∀ a ∈ printedActs noExt items, '{' ∉ a.paperText) ∧
    (webSheets dotty (printedActs noExt items)).map (fun d => (d.shown.map Shown.outline, d.y)) =
      [([("space", 0, 108), ("line", 0, 108)], 132), ([("space", 0, 108), ("line", 0, 108), ("line", 0, 132)], 156)] := by
  refine ⟨[.text [65], .fixed linefeedCmd [], .fixed formfeedCmd [], .text [66], .fixed linefeedCmd []], ?_, ?_, ?_, ?_, ?_, ?_⟩
  case refine_2 => simp [separated, Item.isText]
  case refine_3 => simp [Item.endSafe]
  all_goals decide +kernel

end Thermal
