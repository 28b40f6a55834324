import Verif.Proofs.Sheets
/-
What a call prints is what the acts it is about print.
-/
namespace Thermal
open Spec Renderer

/-! ### Colours -/

theorem nearest_whole (b : Byte) : nearest (b.toNat * 255) 255 = b := by
  unfold nearest
  have : (2 * (b.toNat * 255) + 255) / (2 * 255) = b.toNat := by have := b.toNat_lt; omega
  rw [this]; exact UInt8.ofNat_toNat

theorem shade_eq (background ink : RGBA) (coverage : Byte) : shade background ink coverage = background.blendWithAlpha ink coverage := by
  unfold shade RGBA.blendWithAlpha
  dsimp only
  by_cases h1 : coverage = 255
  · subst h1
    simp only [if_true, show ¬ (255 : Byte) = 0 by decide, if_false]
    have : ∀ p q : Byte, nearest (q.toNat * UInt8.toNat 255 + p.toNat * (255 - UInt8.toNat 255)) 255 = blendChan q q 255 := by
      intro p q
      rw [blendChan_eq]
      show nearest (q.toNat * 255 + p.toNat * 0) 255 = nearest (q.toNat * 255 + q.toNat * 0) 255
      simp
    rw [this, this, this]
  · rw [if_neg h1, if_neg h1]
    by_cases h0 : coverage = 0
    · subst h0
      simp only [if_true]
      have : ∀ p q : Byte, nearest (q.toNat * UInt8.toNat 0 + p.toNat * (255 - UInt8.toNat 0)) 255 = p := by
        intro p q
        show nearest (q.toNat * 0 + p.toNat * 255) 255 = p
        rw [Nat.mul_zero, Nat.zero_add]; exact nearest_whole p
      rw [this, this, this]
    · rw [if_neg h0, blendChan_eq, blendChan_eq, blendChan_eq]; rfl

/-! ### Text -/

theorem large_eq (gs : Canvas.Glyphs) (s : TextSpan) (ch : Char) (x y : Nat) :
    (lookOf s).large gs ch x y = glyphDot (glyphOf gs s ch) s.backgroundColor s.textColor x y := by
  unfold CharLook.large glyphDot
  dsimp only
  have : shade (lookOf s).background (lookOf s).color = s.backgroundColor.blendWithAlpha s.textColor := by
    funext c; exact shade_eq _ _ _
  rw [this]; rfl

theorem dot_eq (gs : Canvas.Glyphs) (s : TextSpan) (ch : Char) : (lookOf s).dot gs ch = cellDot gs s ch := by
  funext x y
  unfold CharLook.dot cellDot
  rw [large_eq, large_eq]; rfl

variable {S : Type} (M : Medium S)

theorem chars_eq (gs : Canvas.Glyphs) (s : TextSpan) (y : Nat) (text : Str) (x : Nat) (P : S) :
    (lookOf s).chars M gs y text x P = M.chars gs s y text x P := by
  induction text generalizing x P with
  | nil => rfl
  | cons ch rest ih =>
    unfold CharLook.chars Medium.chars
    rw [ih, dot_eq]; rfl

theorem piece_eq (gs : Canvas.Glyphs) (xo mh : Nat) (s : TextSpan) (P : S) :
    M.span gs xo mh P s = (spanPiece xo s).toList.foldl (Piece.paint M gs mh) P := by
  unfold Medium.span spanPiece
  cases s.dimensions with
  | none => rfl
  | some d =>
    simp only [Option.map_some, Option.toList_some, List.foldl_cons, List.foldl_nil]
    unfold Piece.paint
    dsimp only
    rw [chars_eq, Nat.add_comm xo d.x]
    have hu : ((lookOf s).underlined = true) = (s.underline > 0) := by
      show ((s.underline != 0) = true) = _
      rw [bne_iff_ne]; exact propext (Nat.pos_iff_ne_zero).symm
    simp only [hu]
    rfl

theorem pieces_eq (gs : Canvas.Glyphs) (xo mh : Nat) (l : List TextSpan) (P : S) :
    l.foldl (M.span gs xo mh) P = (l.filterMap (spanPiece xo)).foldl (Piece.paint M gs mh) P := by
  induction l generalizing P with
  | nil => rfl
  | cons s l ih =>
    rw [List.foldl_cons, ih, piece_eq, List.filterMap_cons]
    cases spanPiece xo s <;> rfl

theorem boxes_eq (gs : Canvas.Glyphs) (color : RGBA) (rs : List Rectangle) (P : S) :
    rs.foldl (M.rect color) P = (rs.map (Thing.box color)).foldl (Thing.paint M gs) P := by
  induction rs generalizing P with
  | nil => rfl
  | cons r rs ih => rw [List.foldl_cons, ih, List.map_cons, List.foldl_cons]; rfl

/-! ### Pictures -/

/-- Only the ink that dots put over what is there counts. -/
def Medium.InkOnly : Prop := ∀ (P : S) (g g' : Nat → Nat → RGBA) (r : Rectangle), (∀ x y, x < r.w → y < r.h → ∀ old, overprint old (g x y) = overprint old (g' x y)) →
  M.put P g r = M.put P g' r

theorem drawn_ink {P : Plane} {g g' : Nat → Nat → RGBA} {x y w h : Nat}
    (hg : ∀ X Y, X < w → Y < h → ∀ old, overprint old (g X Y) = overprint old (g' X Y)) :
    Spec.drawn overprint P g x y w h = Spec.drawn overprint P g' x y w h := by
  funext X Y
  unfold Spec.drawn
  split
  · rename_i hr
    obtain ⟨h1, h2, h3, h4⟩ := hr
    exact hg _ _ (by omega) (by omega) _
  · rfl

theorem paper_ink (w : Nat) : Medium.InkOnly (paperRoll w) := fun P g g' r hg => by show Roll.mk _ _ = Roll.mk _ _; rw [drawn_ink hg]

theorem page_ink : Medium.InkOnly pageMedium := by
  intro P g g' r hg
  show Page.put _ _ _ = Page.put _ _ _
  unfold Page.put
  rw [drawn_ink hg]

theorem picture_eq (hM : Medium.InkOnly M) (gs : Canvas.Glyphs) (i : Image) (P : S) :
    M.image P i = Thing.paint M gs P (.picture i.x i.y (!i.upsideDown) (pictureOf i)) := by
  unfold Medium.image Thing.paint
  have hl : (pictureOf i).dots.length = i.pixels.length := by simp [pictureOf]
  dsimp only
  rw [hl]
  have hd : M.put P (fun a b => ((pictureOf i).dot a b).getD RGBA.blank) ⟨i.x, i.y, (pictureOf i).width, (pictureOf i).height⟩ =
      M.put P (fun x y => i.pixels.getD (y * i.w + x) RGBA.blank) ⟨i.x, i.y, i.w, i.h⟩ := by
    refine hM _ _ _ _ fun x y _ _ old => ?_
    show overprint old (((pictureOf i).dots.getD (y * i.w + x) none).getD RGBA.blank) = _
    simp only [pictureOf, List.getD_eq_getElem?_getD, List.getElem?_map]
    cases i.pixels[y * i.w + x]? with
    | none => rfl
    | some c =>
      simp only [Option.map_some, Option.getD_some]
      by_cases ha : c.a = 0
      · rw [if_pos ha]
        unfold overprint
        rw [if_pos ha]; rfl
      · rw [if_neg ha]; rfl
  rw [hd]
  cases i.upsideDown <;> rfl

/-! ### Calls -/

theorem call_things (hM : Medium.InkOnly M) (gs : Canvas.Glyphs) (x : Context × Call) (P : S) :
    M.call gs P x.1.text.color x.2 = (callThings x).foldl (Thing.paint M gs) P := by
  obtain ⟨c, x⟩ := x
  cases x
  case graphics rs => exact boxes_eq M gs _ _ P
  case image i => exact picture_eq M hM gs _ P
  case text l xo mh j => exact pieces_eq M gs xo mh l P
  all_goals rfl

theorem puts_page (gs : Canvas.Glyphs) (w : Nat) (ts : List Thing) (s : Sheets) :
    (ts.map (Act.put true)).foldl (Sheets.step gs w) s = { s with page := ts.foldl (Thing.paint pageMedium gs) s.page } := by
  induction ts generalizing s with
  | nil => rfl
  | cons t ts ih => rw [List.map_cons, List.foldl_cons, ih]; rfl

theorem puts_paper (gs : Canvas.Glyphs) (w : Nat) (ts : List Thing) (s : Sheets) :
    (ts.map (Act.put false)).foldl (Sheets.step gs w) s = { s with paper := s.paper.map fun P => ts.foldl (Thing.paint (paperRoll w) gs) P } := by
  induction ts generalizing s with
  | nil => simp
  | cons t ts ih =>
    rw [List.map_cons, List.foldl_cons, ih]
    simp only [Sheets.step, Option.map_map]
    rfl

/-- What a call does is what its acts do. -/
theorem call_step (gs : Canvas.Glyphs) (w : Nat) (s : Sheets) (x : Context × Call) :
    s.call gs w x = (callActs x).foldl (Sheets.step gs w) s := by
  have key : ∀ y : Context × Call, (if y.1.pageMode.enabled then { s with page := pageMedium.call gs s.page y.1.text.color y.2 }
      else { s with paper := s.paper.map fun P => (paperRoll w).call gs P y.1.text.color y.2 }) =
      ((callThings y).map (Act.put y.1.pageMode.enabled)).foldl (Sheets.step gs w) s := by
    intro y
    cases he : y.1.pageMode.enabled
    · rw [puts_paper]
      simp only [call_things _ (paper_ink w), Bool.false_eq_true, if_false]
    · rw [puts_page]
      simp only [call_things _ page_ink, if_true]
  obtain ⟨c, x⟩ := x
  cases x
  case graphics rs => exact key _
  case image i => exact key _
  case text l xo mh j => exact key _
  case device => exact key _
  case pageEnd => exact key _
  all_goals rfl

theorem calls_step (gs : Canvas.Glyphs) (w : Nat) (xs : List (Context × Call)) (s : Sheets) :
    xs.foldl (Sheets.call gs w) s = (xs.flatMap fun x => callActs x).foldl (Sheets.step gs w) s := by
  induction xs generalizing s with
  | nil => rfl
  | cons x xs ih => rw [List.foldl_cons, ih, List.flatMap_cons, List.foldl_append, call_step]

end Thermal
