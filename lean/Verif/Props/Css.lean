import Verif.Props.HtmlDocument
import Verif.Proofs.Css
import Verif.Proofs.Outfit
import Verif.Proofs.SubLookup
/-
C75: how text looks in an HTML document, by the document's own style sheet.
-/
namespace Thermal
open Html Spec

/-! ### Which classes a piece of text has -/

section
variable {t : TextSpan} {cs : RenderColors}

theorem head_ne {k r : Str} {a : Char} (h : k.head? ≠ some a) : k ≠ a :: r := fun e => h (by rw [e]; rfl)

/-- The classes that only one feature gives. -/
macro "class_only" : tactic => `(tactic| (
  constructor
  · intro h
    rcases mem_classes.1 h with h | h | h | h | h | h | h | h | h | h | h | h | h | h
    case inr.inr.inr.inr.inr.inr.inr.inr.inr.inr.inr.inr.inl => exact absurd (mem_colour h) (by decide)
    case inr.inr.inr.inr.inr.inr.inr.inr.inr.inr.inr.inr.inr => exact absurd (mem_colour h) (by decide)
    all_goals first | exact absurd h.2 (by decide) | exact absurd h.2 (head_ne (by decide)) | exact h.1
  · intro h
    rw [mem_classes]
    simp only [h, true_and, true_or, or_true, and_self]))

theorem has_bold : "b".toList ∈ classes t cs ↔ t.bold := by class_only
theorem has_italic : "i".toList ∈ classes t cs ↔ t.italic := by class_only
theorem has_strike : "s".toList ∈ classes t cs ↔ 0 < t.strikethrough := by class_only
theorem has_strikes : "sd".toList ∈ classes t cs ↔ 1 < t.strikethrough := by class_only
theorem has_under : "u".toList ∈ classes t cs ↔ 0 < t.underline := by class_only
theorem has_upd : "upd".toList ∈ classes t cs ↔ t.upsideDown := by class_only
theorem has_fb : "fb".toList ∈ classes t cs ↔ t.font = .B := by class_only
theorem has_fc : "fc".toList ∈ classes t cs ↔ t.font = .C := by class_only

theorem has_wide {r : Str} : 'w' :: r ∈ classes t cs ↔ (2 ≤ t.stretchWidth ∧ t.stretchWidth ≤ 8) ∧ r = inDecimal t.stretchWidth := by
  constructor
  · intro h
    rcases mem_classes.1 h with h | h | h | h | h | h | h | h | h | h | h | h | h | h
    case inr.inr.inr.inr.inr.inr.inr.inr.inr.inr.inr.inr.inl =>
      exact absurd (mem_colour h) (by simp)
    case inr.inr.inr.inr.inr.inr.inr.inr.inr.inr.inr.inr.inr =>
      exact absurd (mem_colour h) (by simp)
    case inr.inr.inr.inr.inl => exact ⟨h.1, (List.cons.inj h.2).2⟩
    all_goals exact absurd h.2 (by simp)
  · intro h
    exact mem_classes.2 (.inr (.inr (.inr (.inr (.inl ⟨h.1, by rw [h.2]⟩)))))

theorem has_high {r : Str} : 'h' :: r ∈ classes t cs ↔ (2 ≤ t.stretchHeight ∧ t.stretchHeight ≤ 8) ∧ r = inDecimal t.stretchHeight := by
  constructor
  · intro h
    rcases mem_classes.1 h with h | h | h | h | h | h | h | h | h | h | h | h | h | h
    case inr.inr.inr.inr.inr.inr.inr.inr.inr.inr.inr.inr.inl =>
      exact absurd (mem_colour h) (by simp)
    case inr.inr.inr.inr.inr.inr.inr.inr.inr.inr.inr.inr.inr =>
      exact absurd (mem_colour h) (by simp)
    case inr.inr.inr.inr.inr.inl => exact ⟨h.1, (List.cons.inj h.2).2⟩
    all_goals exact absurd h.2 (by simp)
  · intro h
    exact mem_classes.2 (.inr (.inr (.inr (.inr (.inr (.inl ⟨h.1, by rw [h.2]⟩))))))

/-- Classes of the text colour come from the text colour. -/
theorem has_fg {n : Char} (hn : n = '0' ∨ n = '1' ∨ n = '2' ∨ n = '3') :
    ['f', 'g', '_', n] ∈ classes t cs ↔ ['f', 'g', '_', n] ∈ colourClass t.textColor cs true := by
  constructor
  · intro h
    rcases mem_classes.1 h with h | h | h | h | h | h | h | h | h | h | h | h | h | h
    case inr.inr.inr.inr.inr.inr.inr.inr.inr.inr.inr.inr.inl => exact h
    case inr.inr.inr.inr.inr.inr.inr.inr.inr.inr.inr.inr.inr =>
      exfalso
      unfold colourClass at h
      simp only [Bool.false_eq_true, if_false] at h
      repeat' split at h
      all_goals simp at h
    all_goals exact absurd h.2 (by simp)
  · intro h
    exact mem_classes.2 (by simp only [h, true_or, or_true])

theorem has_bg {n : Char} :
    ['b', 'g', '_', n] ∈ classes t cs ↔ ['b', 'g', '_', n] ∈ colourClass t.backgroundColor cs false := by
  constructor
  · intro h
    rcases mem_classes.1 h with h | h | h | h | h | h | h | h | h | h | h | h | h | h
    case inr.inr.inr.inr.inr.inr.inr.inr.inr.inr.inr.inr.inr => exact h
    case inr.inr.inr.inr.inr.inr.inr.inr.inr.inr.inr.inr.inl =>
      exfalso
      unfold colourClass at h
      simp only [if_true] at h
      repeat' split at h
      all_goals simp at h
    all_goals exact absurd h.2 (by simp)
  · intro h
    exact mem_classes.2 (by simp only [h, or_true])

end

/-! ### The style sheet, property by property -/

theorem style_of {html : Str} (h : documentHead <+: html) (cl : List Str) {p : String} {table : List CssRule}
    (ht : (htmlRules.filter fun r => (r.value p.toList).isSome) = table) {has : Str → Bool}
    (hk : ∀ k ∈ table.flatMap (·.classes), cl.contains k = has k) :
    spanStyle (styleSheet html) cl p = (cascade table "span".toList has p.toList).map (·.2) := by
  obtain ⟨b, rfl⟩ := h
  unfold spanStyle
  rw [styleSheet_head, styleSheet_rules, cascade_filter, ht, cascade_congr hk]


private theorem contains_eq {cl : List Str} {k : Str} {b : Bool} (h : k ∈ cl ↔ b = true) : cl.contains k = b := by
  rw [Bool.eq_iff_iff, List.contains_iff_mem]; exact h

section
variable {html : Str} (hh : documentHead <+: html) (t : TextSpan) (cs : RenderColors)
include hh

theorem look_bold : spanStyle (styleSheet html) (classes t cs) "font-weight" = if t.bold then some "bold".toList else none := by
  rw [style_of hh _ (p := "font-weight") (table := [⟨[], ["b".toList], [("font-weight".toList, "bold".toList)]⟩]) (by decide +kernel)
    (has := fun _ => t.bold)]
  · generalize t.bold = b; cases b <;> decide +kernel
  · intro k hk
    obtain rfl : k = "b".toList := by simpa using hk
    exact contains_eq has_bold

theorem look_italic : spanStyle (styleSheet html) (classes t cs) "font-style" = if t.italic then some "italic".toList else none := by
  rw [style_of hh _ (p := "font-style") (table := [⟨[], ["i".toList], [("font-style".toList, "italic".toList)]⟩]) (by decide +kernel)
    (has := fun _ => t.italic)]
  · generalize t.italic = b; cases b <;> decide +kernel
  · intro k hk
    obtain rfl : k = "i".toList := by simpa using hk
    exact contains_eq has_italic

theorem look_size : spanStyle (styleSheet html) (classes t cs) "font-size" =
    match t.font with | .B => some ".8em".toList | .C => some ".65em".toList | _ => none := by
  rw [style_of hh _ (p := "font-size") (table := (htmlRules.filter fun r => (r.value "font-size".toList).isSome)) rfl
    (has := fun k => (k == "fb".toList && t.font == .B) || (k == "fc".toList && t.font == .C))]
  · generalize t.font = f; cases f <;> decide +kernel
  · have e : ((htmlRules.filter fun r => (r.value "font-size".toList).isSome).flatMap (·.classes)) = ["fb".toList, "fc".toList] := by
      decide +kernel
    rw [e]
    intro k hk
    rcases List.mem_pair.1 hk with rfl | rfl
    · refine contains_eq (has_fb.trans ?_); generalize t.font = f; cases f <;> decide
    · refine contains_eq (has_fc.trans ?_); generalize t.font = f; cases f <;> decide

theorem look_decoration : spanStyle (styleSheet html) (classes t cs) "text-decoration" =
    if 0 < t.strikethrough then some "line-through".toList else if 0 < t.underline then some "underline".toList else none := by
  rw [style_of hh _ (p := "text-decoration") (table := (htmlRules.filter fun r => (r.value "text-decoration".toList).isSome)) rfl
    (has := fun k => (k == "u".toList && decide (0 < t.underline)) || (k == "s".toList && decide (0 < t.strikethrough)) ||
      (k == "sd".toList && decide (1 < t.strikethrough)))]
  · have key : ∀ u s d : Bool, (d = true → s = true) → (cascade (htmlRules.filter fun r => (r.value "text-decoration".toList).isSome) "span".toList
        (fun k => (k == "u".toList && u) || (k == "s".toList && s) || (k == "sd".toList && d)) "text-decoration".toList).map (·.2) =
        if s then some "line-through".toList else if u then some "underline".toList else none := by decide +kernel
    rw [key _ _ _ (by simp; omega)]
    simp only [decide_eq_true_eq]
  · have e : ((htmlRules.filter fun r => (r.value "text-decoration".toList).isSome).flatMap (·.classes)) =
      ["u".toList, "s".toList, "s".toList, "sd".toList] := by decide +kernel
    rw [e]
    intro k hk
    simp only [List.mem_cons, List.not_mem_nil, or_false] at hk
    rcases hk with rfl | rfl | rfl | rfl
    · refine contains_eq (has_under.trans ?_); simp
    · refine contains_eq (has_strike.trans ?_); simp
    · refine contains_eq (has_strike.trans ?_); simp
    · refine contains_eq (has_strikes.trans ?_); simp

theorem look_colour (hc : t.textColor ∈ palette) :
    spanStyle (styleSheet html) (classes t defaultColors) "color" = some t.textColor.asHex := by
  rw [style_of hh _ (p := "color") (table := (htmlRules.filter fun r => (r.value "color".toList).isSome)) rfl
    (has := fun k => (colourClass t.textColor defaultColors true).contains k)]
  · revert hc; generalize t.textColor = c; revert c; decide +kernel
  · have e : ((htmlRules.filter fun r => (r.value "color".toList).isSome).flatMap (·.classes)) =
      [['f', 'g', '_', '0'], ['f', 'g', '_', '1'], ['f', 'g', '_', '2'], ['f', 'g', '_', '3']] := by decide +kernel
    rw [e]
    intro k hk
    refine contains_eq ?_
    rw [List.contains_iff_mem]
    simp only [List.mem_cons, List.not_mem_nil, or_false] at hk
    rcases hk with rfl | rfl | rfl | rfl <;> exact has_fg (by simp)

theorem look_background (hc : t.backgroundColor ∈ palette) :
    spanStyle (styleSheet html) (classes t defaultColors) "background-color" =
      some (if t.backgroundColor = defaultColors.paperColor then "transparent".toList else t.backgroundColor.asHex) := by
  rw [style_of hh _ (p := "background-color") (table := (htmlRules.filter fun r => (r.value "background-color".toList).isSome)) rfl
    (has := fun k => (colourClass t.backgroundColor defaultColors false).contains k)]
  · revert hc; generalize t.backgroundColor = c; revert c; decide +kernel
  · have e : ((htmlRules.filter fun r => (r.value "background-color".toList).isSome).flatMap (·.classes)) =
      [['b', 'g', '_', '0'], ['b', 'g', '_', '1'], ['b', 'g', '_', '2'], ['b', 'g', '_', '3']] := by decide +kernel
    rw [e]
    intro k hk
    refine contains_eq ?_
    rw [List.contains_iff_mem]
    simp only [List.mem_cons, List.not_mem_nil, or_false] at hk
    rcases hk with rfl | rfl | rfl | rfl <;> exact has_bg

theorem look_stretch (hw : t.stretchWidth ∈ sizes) (hg : t.stretchHeight ∈ sizes) :
    stretching (spanStyle (styleSheet html) (classes t cs) "transform") =
      if t.stretchWidth = 1 ∧ t.stretchHeight = 1 then ((1 : Int), if t.upsideDown then (-1 : Int) else 1)
      else if t.stretchWidth = t.stretchHeight ∨ t.stretchHeight = 1 ∨ t.stretchWidth = 1 then ((t.stretchWidth : Int), (t.stretchHeight : Int))
      else if t.stretchWidth < t.stretchHeight then (1, (t.stretchHeight : Int)) else ((t.stretchWidth : Int), 1) := by
  rw [style_of hh _ (p := "transform") (table := (htmlRules.filter fun r => (r.value "transform".toList).isSome)) rfl
    (has := fun k => (k == "upd".toList && t.upsideDown) || (k == 'w' :: inDecimal t.stretchWidth && decide (2 ≤ t.stretchWidth)) ||
      (k == 'h' :: inDecimal t.stretchHeight && decide (2 ≤ t.stretchHeight)))]
  · revert hw hg
    generalize t.stretchWidth = w
    generalize t.stretchHeight = g
    generalize t.upsideDown = u
    revert u w g
    have key : ∀ u : Bool, ∀ w ∈ sizes, ∀ g ∈ sizes, stretching ((cascade (htmlRules.filter fun r => (r.value "transform".toList).isSome)
        "span".toList (fun k => (k == "upd".toList && u) || (k == 'w' :: inDecimal w && decide (2 ≤ w)) ||
          (k == 'h' :: inDecimal g && decide (2 ≤ g))) "transform".toList).map (·.2)) =
        if w = 1 ∧ g = 1 then ((1 : Int), if u then (-1 : Int) else 1)
        else if w = g ∨ g = 1 ∨ w = 1 then ((w : Int), (g : Int))
        else if w < g then (1, (g : Int)) else ((w : Int), 1) := by decide +kernel
    exact fun w g u hw hg => key u w hw g hg
  · have e : ∀ k ∈ ((htmlRules.filter fun r => (r.value "transform".toList).isSome).flatMap (·.classes)),
      k = "upd".toList ∨ (k.head? = some 'w' ∨ k.head? = some 'h') := by decide +kernel
    have b8 : ∀ n ∈ sizes, n ≤ 8 := by decide
    intro k hk
    refine contains_eq ?_
    rcases e k hk with rfl | h | h
    · refine has_upd.trans ?_
      have h1 : ("upd".toList == 'w' :: inDecimal t.stretchWidth) = false := by
        rw [beq_eq_false_iff_ne]; exact head_ne (by decide)
      have h2 : ("upd".toList == 'h' :: inDecimal t.stretchHeight) = false := by
        rw [beq_eq_false_iff_ne]; exact head_ne (by decide)
      rw [h1, h2]; simp
    · obtain ⟨r, rfl⟩ : ∃ r, k = 'w' :: r := by cases k with | nil => cases h | cons a r => exact ⟨r, by cases h; rfl⟩
      refine has_wide.trans ?_
      have := b8 _ hw
      simp [this]
      tauto
    · obtain ⟨r, rfl⟩ : ∃ r, k = 'h' :: r := by cases k with | nil => cases h | cons a r => exact ⟨r, by cases h; rfl⟩
      refine has_high.trans ?_
      have := b8 _ hg
      simp [this]
      tauto

end

theorem hex02_eq (b : Byte) :
    hex02 b = ["0123456789ABCDEF".toList.getD (b.toNat / 16) '?', "0123456789ABCDEF".toList.getD (b.toNat % 16) '?'] :=
  byte_all (P := fun b => hex02 b =
    ["0123456789ABCDEF".toList.getD (b.toNat / 16) '?', "0123456789ABCDEF".toList.getD (b.toNat % 16) '?']) (by decide +kernel) b

theorem asHex_eq (c : RGBA) : c.asHex = rgbaColor c := by
  simp only [RGBA.asHex, hex02_eq]
  rfl

/-- How a piece of text is drawn by a style. -/
structure LooksAsAsked (t : TextSpan) (style : String → Option Str) : Prop where
  bold : style "font-weight" = if t.bold then some "bold".toList else none
  italic : style "font-style" = if t.italic then some "italic".toList else none
  struck : style "text-decoration" = some "line-through".toList ↔ t.strikethrough ≠ 0
  underlined : t.strikethrough = 0 → (style "text-decoration" = some "underline".toList ↔ t.underline ≠ 0)
  color : style "color" = some (rgbaColor t.textColor)
  background : style "background-color" =
    some (if t.backgroundColor = defaultColors.paperColor then "transparent".toList else rgbaColor t.backgroundColor)
  fontA : t.font = .A → style "font-size" = none
  fontB : t.font = .B → style "font-size" = some ".8em".toList
  size : ((t.stretchWidth = t.stretchHeight ∨ t.stretchWidth = 1 ∨ t.stretchHeight = 1) ∧
      (t.upsideDown = true → t.stretchWidth = 1 ∧ t.stretchHeight = 1)) ↔
    stretching (style "transform") = ((t.stretchWidth : Int), if t.upsideDown then -(t.stretchHeight : Int) else (t.stretchHeight : Int))

theorem looks_as_asked {html : Str} (hh : documentHead <+: html) {t : TextSpan} (ht : Outfit.Span t) :
    LooksAsAsked t (spanStyle (styleSheet html) (classes t defaultColors)) where
  bold := look_bold hh t _
  italic := look_italic hh t _
  struck := by
    rw [look_decoration hh]
    have e : "underline".toList ≠ "line-through".toList := by decide
    by_cases h1 : 0 < t.strikethrough
    · rw [if_pos h1]; simp; omega
    · rw [if_neg h1]
      constructor
      · intro h
        split at h
        · exact absurd (Option.some.inj h) e
        · cases h
      · intro h; omega
  underlined := by
    intro h0
    rw [look_decoration hh, if_neg (by omega)]
    by_cases h1 : 0 < t.underline
    · rw [if_pos h1]; simp; omega
    · rw [if_neg h1]; simp; omega
  color := by rw [look_colour hh t ht.color, asHex_eq]
  background := by rw [look_background hh t ht.background, asHex_eq]
  fontA := by intro h; rw [look_size hh, h]
  fontB := by intro h; rw [look_size hh, h]
  size := by
    rw [look_stretch hh t _ ht.width ht.height]
    have hw := ht.width
    have hg := ht.height
    generalize t.stretchWidth = w at *
    generalize t.stretchHeight = g at *
    generalize t.upsideDown = u at *
    have key : ∀ u : Bool, ∀ w ∈ sizes, ∀ g ∈ sizes, ((w = g ∨ w = 1 ∨ g = 1) ∧ (u = true → w = 1 ∧ g = 1)) ↔
        (if w = 1 ∧ g = 1 then ((1 : Int), if u then (-1 : Int) else 1)
          else if w = g ∨ g = 1 ∨ w = 1 then ((w : Int), (g : Int))
          else if w < g then (1, (g : Int)) else ((w : Int), 1)) = ((w : Int), if u then -(g : Int) else (g : Int)) := by decide +kernel
    exact key u w hw g hg

/-- C75 (part). In every document for a stream, by the document's own style sheet and the rules of CSS, each piece of text has the
weight, the slant, the colours and the line through it that it was printed with, an underline if it is not struck through as well, and the
size of fonts A and B.  Its size and orientation are right exactly when it is not upside down and one of the two factors is 1 or both are
the same, or when it is upside down in the usual size. -/
theorem C75_look_partial (gs : Canvas.Glyphs) (png : Png) (ext : Ext) (d : Debug) (bytes : List Byte) (outs errs r) (units errs' t)
    (h : Renderer.render (htmlRenderer gs png) ext (Renderer.new (HtmlRenderer.new d)) bytes = .ok (outs, errs, r))
    (h' : Renderer.render recorder ext (Renderer.new []) bytes = .ok (units, errs', t))
    (hpng : ∀ w h b, '{' ∉ png w h b) (hb : ∀ x ∈ t.child, ∀ s ∈ x.2.spans, '{' ∉ s.text) :
    ∀ out ∈ outs, ∀ x ∈ t.child, ∀ s ∈ x.2.spans, LooksAsAsked s (spanStyle (styleSheet out) (classes s defaultColors)) := by
  intro out ho x hx s hs
  have hd := documents_shown gs png ext d bytes outs errs r units errs' t h h' hpng hb
  have : documentHead <+: out := by
    clear h h' hx hs hb
    generalize sheets [] t.child = l at hd
    induction hd with
    | nil => cases ho
    | cons h1 _ ih =>
      rcases List.mem_cons.1 ho with rfl | ho
      · obtain ⟨style, rows, blocks, rfl, _⟩ := h1
        simp only [List.append_assoc]
        exact List.prefix_append _ _
      · exact ih ho
  exact looks_as_asked this ((render_outfit h' x hx).spans s hs)

/-- `C75_look_partial` on `ESC E 1`, "a", `GS ! 0x11`, `ESC - 1`, "b", `GS B 1`, "c". -/
example : ∃ outs errs r units errs' t, Renderer.render (htmlRenderer noGlyphs noPng) noExt (Renderer.new HtmlRenderer.new)
      [27, 69, 1, 97, 29, 33, 17, 27, 45, 1, 98, 29, 66, 1, 99] = .ok (outs, errs, r) ∧
    Renderer.render recorder noExt (Renderer.new []) [27, 69, 1, 97, 29, 33, 17, 27, 45, 1, 98, 29, 66, 1, 99] = .ok (units, errs', t) ∧
    (∀ x ∈ t.child, ∀ s ∈ x.2.spans, '{' ∉ s.text) ∧ outs.length = 1 ∧
    (t.child.flatMap (·.2.spans)).map (fun s => (s.text, s.bold, s.stretchWidth, s.stretchHeight, s.underline != 0, s.backgroundColor)) =
      [(['a'], true, 1, 1, false, defaultColors.paperColor), (['b'], true, 2, 2, true, defaultColors.paperColor),
       (['c'], true, 2, 2, true, defaultColors.color1)] := by
  refine ⟨_, _, _, _, _, _, rfl, rfl, ?_⟩
  decide +kernel

/-- C75: `GS ! 0x12`, text twice as wide and three times as high, is not shown wider; `ESC { 1`, upside down, has no effect on text of
double size (`GS ! 0x11`). -/
theorem C75_not_shown : ∃ units errs t,
    Renderer.render recorder noExt (Renderer.new []) [29, 33, 0x12, 65, 10, 29, 33, 0x11, 27, 123, 1, 66] = .ok (units, errs, t) ∧
    ∃ s1 s2, t.child.flatMap (·.2.spans) = [s1, s2] ∧
      (s1.text = ['A'] ∧ s1.stretchWidth = 2 ∧ s1.stretchHeight = 3) ∧
      (s2.text = ['B'] ∧ s2.stretchWidth = 2 ∧ s2.stretchHeight = 2 ∧ s2.upsideDown = true) ∧
      ∀ html, documentHead <+: html →
        stretching (spanStyle (styleSheet html) (classes s1 defaultColors) "transform") = (1, 3) ∧
        stretching (spanStyle (styleSheet html) (classes s2 defaultColors) "transform") = (2, 2) := by
  refine ⟨_, _, _, rfl, _, _, rfl, ?_, ?_, ?_⟩
  · decide +kernel
  · decide +kernel
  · intro html hh
    refine ⟨?_, ?_⟩
    · rw [look_stretch hh _ _ (by decide +kernel) (by decide +kernel)]; decide +kernel
    · rw [look_stretch hh _ _ (by decide +kernel) (by decide +kernel)]; decide +kernel

/-- C76. Whatever bytes are printed, every piece of text handed to the output renderer has characters of 12 by 24 dots or of 9 by 17,
1 to 8 times as wide and 1 to 8 times as high, and its colours are those of the paper and the three inks. -/
theorem C76_sizes_and_colours {ext : Ext} {bytes : List Byte} {outs errs} {t : Renderer.Recording}
    (h : Renderer.render recorder ext (Renderer.new []) bytes = .ok (outs, errs, t)) :
    ∀ x ∈ t.child, ∀ s ∈ x.2.spans, (1 ≤ s.stretchWidth ∧ s.stretchWidth ≤ 8) ∧ (1 ≤ s.stretchHeight ∧ s.stretchHeight ≤ 8) ∧
      (s.baseCharacterWidth, s.baseCharacterHeight) ∈ [(12, 24), (9, 17)] ∧
      s.characterWidth = s.baseCharacterWidth * s.stretchWidth ∧ s.characterHeight = s.baseCharacterHeight * s.stretchHeight ∧
      s.textColor ∈ [defaultColors.paperColor, defaultColors.color1, defaultColors.color2, defaultColors.color3] ∧
      s.backgroundColor ∈ [defaultColors.paperColor, defaultColors.color1, defaultColors.color2, defaultColors.color3] := by
  intro x hx s hs
  have a := (render_outfit h x hx).spans s hs
  have key : ∀ n ∈ sizes, 1 ≤ n ∧ n ≤ 8 := by decide
  exact ⟨key _ a.width, key _ a.height, a.cell, a.wide, a.high, a.color, a.background⟩

/-- `C76_sizes_and_colours` on `GS ! 0xFF`, `ESC r 1`, "a", `GS B 1`, "b". -/
example : ∃ units errs t, Renderer.render recorder noExt (Renderer.new []) [29, 33, 255, 27, 114, 1, 97, 29, 66, 1, 98] = .ok (units, errs, t) ∧
    (t.child.flatMap (·.2.spans)).map (fun s => (s.stretchWidth, s.stretchHeight, s.characterWidth, s.characterHeight, s.textColor, s.backgroundColor)) =
      [(8, 8, 96, 192, defaultColors.color2, defaultColors.paperColor), (8, 8, 96, 192, defaultColors.paperColor, defaultColors.color1)] := by
  refine ⟨_, _, _, rfl, ?_⟩
  decide +kernel

end Thermal
