import Verif.Spec.WebReceipt
import Verif.Props.Receipt
import Verif.Props.Web
import Verif.Props.HtmlTotal
/-
C98: a plain receipt as a web page.
-/
namespace Thermal
open Html Spec Renderer

variable {ext : Ext}

/-- A line of text that is not empty, as it is set. -/
def setText (y : Nat) (l : List Byte) : TextLine :=
  ⟨24, (setInLine 0 (words (asciiOf l))).map fun p => ⟨⟨0 + 0 + p.1, y, p.2.width, p.2.2.cell.2⟩, p.2.1, p.2.2⟩⟩

/-- Those that are not empty. -/
def setTexts : Nat → List (List Byte) → List TextLine
  | _, [] => []
  | y, l :: ls => if l = [] then setTexts (y + 24) ls else setText y l :: setTexts (y + 24) ls

theorem words_ne_nil {t : Str} (h : t ≠ []) : words t ≠ [] := by
  intro e
  have := words_flatten t
  rw [e] at this
  exact h this.symm

theorem setTexts_eq (y : Nat) (lines : List (List Byte)) : ((setLines y lines).flatMap fun l => setLine 0 609 l.1 l.2) = setTexts y lines := by
  induction lines generalizing y with
  | nil => rfl
  | cons l ls ih =>
    unfold setLines setTexts
    rw [List.flatMap_cons, ih]
    by_cases e : l = []
    · subst e; rfl
    · rw [if_neg e]
      have hne : asciiOf l ≠ [] := by unfold asciiOf; simpa using e
      have h1 := setInLine_top (words (asciiOf l)) 0 (words_ne_nil hne)
      unfold setText
      cases h : words (asciiOf l) with
      | nil => exact absurd h (words_ne_nil hne)
      | cons w ws =>
        rw [h] at h1
        show (⟨_, _⟩ : TextLine) :: _ = _
        rw [h1]
        rfl

theorem web_lines (gs : Canvas.Glyphs) (ls : List TextLine) (pg : Page) (sheet : List Shown) (done : List WebDoc) :
    (ls.map fun l => Act.put false (.line l)).foldl (Web.step gs) ⟨pg, sheet, done⟩ = ⟨pg, sheet ++ ls.map fun l => .thing (.line l), done⟩ := by
  induction ls generalizing sheet with
  | nil => simp
  | cons l ls ih =>
    rw [List.map_cons, List.foldl_cons]
    show (ls.map fun l => Act.put false (.line l)).foldl (Web.step gs) ⟨pg, sheet ++ [.thing (.line l)], done⟩ = _
    rw [ih]
    simp

theorem receipt_docs (gs : Canvas.Glyphs) {lines : List (List Byte)} (hl : ∀ l ∈ lines, plainLine l) :
    webSheets gs (printedActs ext (receiptItems lines)) =
      [⟨.space 108 :: (setTexts 108 lines).map fun l => .thing (.line l), false, 108 + 24 * lines.length⟩] := by
  rw [receipt_acts hl, setTexts_eq]
  unfold webSheets
  rw [List.foldl_append, List.foldl_append]
  have h1 : ([Act.newSheet 108]).foldl (Web.step gs) .none = ⟨.empty, [.space 108], []⟩ := rfl
  rw [h1, web_lines]
  rfl

theorem receipt_braces {lines : List (List Byte)} (hl : ∀ l ∈ lines, plainLine l) (hb : ∀ l ∈ lines, 123 ∉ l) :
    ∀ a ∈ printedActs ext (receiptItems lines), '{' ∉ a.paperText := by
  rw [receipt_acts hl, setTexts_eq]
  intro a ha
  simp only [List.mem_append, List.mem_singleton, List.mem_map] at ha
  rcases ha with (rfl | ⟨t, ht, rfl⟩) | rfl
  · simp [Act.paperText]
  · have key : ∀ (ls : List (List Byte)) y, (∀ l ∈ ls, 123 ∉ l) → ∀ t ∈ setTexts y ls, '{' ∉ (Act.put false (.line t)).paperText := by
      intro ls
      induction ls with
      | nil => intro y _ t ht; simp [setTexts] at ht
      | cons l ls ih =>
        intro y hb t ht
        unfold setTexts at ht
        have hrec := ih (y + 24) (fun x hx => hb x (by simp [hx]))
        split at ht
        · exact hrec t ht
        · rcases List.mem_cons.1 ht with rfl | ht
          · have e : ∀ (ws : List Str) x, ((setInLine x ws).map fun p => (⟨⟨0 + 0 + p.1, y, p.2.width, p.2.2.cell.2⟩, p.2.1, p.2.2⟩ : Spec.Piece)).flatMap (·.text) = ws.flatten := by
              intro ws
              induction ws with
              | nil => intro x; rfl
              | cons w ws ih => intro x; unfold setInLine; rw [List.map_cons, List.flatMap_cons, ih]; rfl
            show '{' ∉ (setText y l).pieces.flatMap (·.text)
            unfold setText
            rw [e, words_flatten]
            intro hm
            unfold asciiOf at hm
            obtain ⟨b, h1, h2⟩ := List.mem_map.1 hm
            have h3 : ∀ b : Byte, Char.ofNat b.toNat = '{' → b = 123 := byte_all (P := fun b => Char.ofNat b.toNat = '{' → b = 123) (by decide +kernel)
            rw [h3 b h2] at h1
            exact hb l (by simp) h1
          · exact hrec t ht
    exact key lines 108 hb t ht
  · simp [Act.paperText]

/-! ### Rows -/

/-- A row without boxes shows one thing. -/
theorem row_single {png rules y h html shown} (hr : RowShows png rules y h html shown) (hne : shown ≠ []) (hb : ∀ s ∈ shown, s.box = none) :
    ∃ s, shown = [s] := by
  unfold RowShows at hr
  split at hr
  · exact absurd rfl hne
  · exact ⟨_, rfl⟩
  · exact ⟨_, rfl⟩
  · exact ⟨_, rfl⟩
  · exact ⟨_, rfl⟩
  · obtain ⟨_, _, gs, _, e, _⟩ := hr
    cases shown with
    | nil => exact absurd rfl hne
    | cons s ss =>
      cases gs with
      | nil => simp at e
      | cons g gs => simp [hb s (by simp)] at e

theorem flat_single {rows : List WebRow} (h : ∀ r ∈ rows, ∃ s, r.shown = [s]) : rows.map (·.shown) = (rows.flatMap (·.shown)).map fun s => [s] := by
  induction rows with
  | nil => rfl
  | cons r rs ih =>
    obtain ⟨s, e⟩ := h r (by simp)
    rw [List.map_cons, List.flatMap_cons, ih fun x hx => h x (by simp [hx]), e]
    rfl

theorem plain_style {style : String → Option Str} (h : LooksLike plain style) : PlainStyle style := by
  refine ⟨?_, ?_, ?_, ?_, ?_, ?_, ?_, ?_⟩
  · rw [h.bold]; rfl
  · rw [h.italic]; rfl
  · intro e; exact (h.struck.1 e) rfl
  · intro e; exact absurd ((h.underlined rfl).1 e) (by decide)
  · rw [h.color]; decide +kernel
  · rw [h.background]; decide +kernel
  · exact h.fontA rfl
  · exact h.size.1 (by decide)

theorem smallest_const {y : Nat} : ∀ {ns : List Nat}, ns ≠ [] → (∀ n ∈ ns, n = y) → smallest ns = y
  | [], h, _ => absurd rfl h
  | [n], _, h => h n (by simp)
  | n :: m :: ns, _, h => by
    have h1 := h n (by simp)
    have h2 := smallest_const (ns := m :: ns) (by simp) fun x hx => h x (by simp [hx])
    show min n (smallest (m :: ns)) = y
    omega

theorem largest_const {y : Nat} : ∀ {ns : List Nat}, ns ≠ [] → (∀ n ∈ ns, n = y) → largest ns = y
  | [], h, _ => absurd rfl h
  | [n], _, h => by have := h n (by simp); simp [largest, this]
  | n :: m :: ns, _, h => by
    have h1 := h n (by simp)
    have h2 := largest_const (ns := m :: ns) (by simp) fun x hx => h x (by simp [hx])
    show max n (largest (m :: ns)) = y
    omega

theorem setText_html {rules : List CssRule} (y : Nat) (l : List Byte) {html : Str}
    (h : ∃ tags, html = ['\n'].intercalate tags ∧
        List.Forall₂ (fun p tag => ∃ classes, tag = Spec.Piece.tag 24 p classes ∧ LooksLike p.look (spanStyle rules classes)) (setText y l).pieces tags) :
    LineHtml rules l html := by
  obtain ⟨tags, e, hf⟩ := h
  refine ⟨tags, e, ?_⟩
  have key : ∀ (ws : List Str) (k : Nat) (tags : List Str),
      List.Forall₂ (fun p tag => ∃ classes, tag = Spec.Piece.tag 24 p classes ∧ LooksLike p.look (spanStyle rules classes))
        ((setInLine (12 * k) ws).map fun p => (⟨⟨0 + 0 + p.1, y, p.2.width, p.2.2.cell.2⟩, p.2.1, p.2.2⟩ : Spec.Piece)) tags →
      List.Forall₂ (fun (p : Nat × Str) tag => ∃ classes, PlainStyle (spanStyle rules classes) ∧
        tag = "<span style='left: ".toList ++ inDecimal (12 * p.1) ++ "px; top: 0px' class='".toList ++ [' '].intercalate classes ++
          "'>".toList ++ p.2 ++ "</span>".toList) (columns k ws) tags := by
    intro ws
    induction ws with
    | nil =>
      intro k tags h
      cases h
      exact .nil
    | cons w ws ih =>
      intro k tags h
      unfold setInLine at h
      rw [show 12 * k + w.length * 12 = 12 * (k + w.length) by omega] at h
      rcases h with _ | ⟨⟨classes, h1, h2⟩, h3⟩
      refine .cons ⟨classes, plain_style h2, ?_⟩ (ih _ _ h3)
      rw [h1]
      have e0 : inDecimal 0 = "0".toList := by decide +kernel
      have e1 : "px; top: 0px' class='".toList = "px; top: ".toList ++ "0".toList ++ "px' class='".toList := by decide +kernel
      unfold Spec.Piece.tag
      dsimp only
      rw [show (24 - plain.cell.2) * 78 / 100 = 0 by decide, e0, e1, show 0 + 0 + 12 * k = 12 * k by omega]
      simp only [List.append_assoc]
  exact key _ 0 _ hf

/-- The rows of the lines. -/
theorem text_rows {png rules} (lines : List (List Byte)) (y : Nat) (rs : List WebRow)
    (hs : rs.map (·.shown) = (setTexts y lines).map fun t => [.thing (.line t)])
    (hr : ∀ r ∈ rs, RowShows png rules r.y r.height r.html r.shown) :
    (rs.map fun r => (r.y, r.height)) = (lineTops y lines).map (fun t => (t, 24)) ∧
      List.Forall₂ (LineHtml rules) (lines.filter (· ≠ [])) (rs.map (·.html)) := by
  induction lines generalizing y rs with
  | nil =>
    have : rs = [] := by simpa [setTexts] using hs
    subst this
    exact ⟨rfl, .nil⟩
  | cons l ls ih =>
    unfold setTexts at hs
    unfold lineTops
    by_cases e : l = []
    · rw [if_pos e] at hs
      rw [if_pos e, List.filter_cons_of_neg (by simp [e])]
      exact ih _ _ hs hr
    · rw [if_neg e] at hs
      rw [if_neg e, List.filter_cons_of_pos (by simp [e])]
      cases rs with
      | nil => simp at hs
      | cons r rs =>
        rw [List.map_cons, List.map_cons, List.cons.injEq] at hs
        obtain ⟨h1, h2⟩ := ih (y + 24) rs hs.2 fun x hx => hr x (by simp [hx])
        have h3 := hr r (by simp)
        rw [hs.1] at h3
        obtain ⟨h4, h5, h6⟩ := h3
        have hne : (setText y l).pieces ≠ [] := by
          have : words (asciiOf l) ≠ [] := words_ne_nil (by unfold asciiOf; simpa using e)
          unfold setText
          cases h : words (asciiOf l) with
          | nil => exact absurd h this
          | cons w ws => simp [setInLine]
        have hp : ∀ p ∈ (setText y l).pieces, p.area.y = y ∧ p.look.cell.2 = 24 := by
          have key : ∀ (ws : List Str) x, ∀ q ∈ setInLine x ws, q.2.2 = plain := by
            intro ws
            induction ws with
            | nil => intro x q hq; simp [setInLine] at hq
            | cons w ws ih =>
              intro x q hq
              unfold setInLine at hq
              rcases List.mem_cons.1 hq with rfl | hq
              · rfl
              · exact ih _ q hq
          intro p hp
          unfold setText at hp
          obtain ⟨q, hq, rfl⟩ := List.mem_map.1 hp
          refine ⟨rfl, ?_⟩
          show q.2.2.cell.2 = 24
          rw [key _ _ q hq]; rfl
        have a1 : r.y = y := by
          rw [h4]
          refine smallest_const (by simpa using hne) ?_
          intro n hn
          obtain ⟨p, h7, rfl⟩ := List.mem_map.1 hn
          exact (hp p h7).1
        have a2 : r.height = 24 := by
          rw [h5]
          refine largest_const (by simpa using hne) ?_
          intro n hn
          obtain ⟨p, h7, rfl⟩ := List.mem_map.1 hn
          exact (hp p h7).2
        refine ⟨?_, .cons (setText_html y l h6) h2⟩
        rw [List.map_cons, List.map_cons, h1, a1, a2]

theorem no_overlaps (lines : List (List Byte)) (y z : Nat) (hz : z ≤ y) :
    overlaps z 0 ((lineTops y lines).map fun t => (t, 24)) = (lineTops y lines).map fun _ => 0 := by
  induction lines generalizing y z with
  | nil => rfl
  | cons l ls ih =>
    unfold lineTops
    split
    · exact ih _ _ (by omega)
    · rw [List.map_cons, List.map_cons]
      show (0 + (z - y)) :: overlaps (y + 24) (0 + (z - y)) _ = _
      rw [show 0 + (z - y) = 0 by omega, ih (y + 24) (y + 24) (Nat.le_refl _)]

theorem bottom_last (a : Nat) (bs : List Block) (ps : List (Nat × Nat)) (ht : tops a bs = ps.map (·.1)) (hh : bs.map (·.height) = ps.map (·.2)) :
    bottom a bs = (ps.getLast?.map fun p => p.1 + p.2).getD a := by
  induction bs generalizing a ps with
  | nil =>
    have : ps = [] := by simpa using hh
    subst this; rfl
  | cons b bs ih =>
    cases ps with
    | nil => simp at hh
    | cons p ps =>
      unfold tops at ht
      simp only [List.map_cons, List.cons.injEq] at ht hh
      unfold bottom
      rw [ih _ ps ht.2 hh.2, List.getLast?_cons]
      rw [hh.1, ht.1]
      cases ps.getLast? <;> rfl

theorem last_line (lines : List (List Byte)) (y : Nat) : ∀ t ∈ lineTops y lines, t + 24 ≤ y + 24 * lines.length := by
  induction lines generalizing y with
  | nil => intro t ht; simp [lineTops] at ht
  | cons l ls ih =>
    intro t ht
    unfold lineTops at ht
    rw [List.length_cons]
    split at ht
    · have := ih _ t ht; omega
    · rcases List.mem_cons.1 ht with rfl | ht
      · omega
      · have := ih _ t ht; omega

theorem getD_le {α : Type} {f : α → Nat} {l : List α} {n : Nat} (hn : ∀ x ∈ l, f x ≤ n) : (l.getLast?.map f).getD 0 ≤ n := by
  cases h : l.getLast? with
  | none => exact Nat.zero_le _
  | some x => exact hn x (List.mem_of_getLast? h)

/-- The page of a receipt. -/
theorem receipt_page {png head out} {lines : List (List Byte)}
    (h : IsWebPage png False head out ⟨.space 108 :: (setTexts 108 lines).map fun l => .thing (.line l), false, 108 + 24 * lines.length⟩) :
    IsReceiptPage head out lines := by
  obtain ⟨pad, rows, blocks, h1, h2, h3, h4, h5, h6, h7⟩ := h
  have h3' : rows.flatMap (·.shown) = .space 108 :: (setTexts 108 lines).map fun l => .thing (.line l) := h3
  have hbox : ∀ s ∈ rows.flatMap (·.shown), s.box = none := by
    rw [h3']
    intro s hs
    rcases List.mem_cons.1 hs with rfl | hs
    · rfl
    · obtain ⟨t, _, rfl⟩ := List.mem_map.1 hs; rfl
  have hone : ∀ r ∈ rows, ∃ s, r.shown = [s] := fun r hr =>
    row_single (h5 r hr) (fun e => h4 ⟨r, hr, e⟩) fun s hs => hbox s (List.mem_flatMap.2 ⟨r, hr, hs⟩)
  have hall := flat_single hone
  rw [h3'] at hall
  cases rows with
  | nil => simp at hall
  | cons r0 rs =>
    simp only [List.map_cons, List.map_map, List.cons.injEq] at hall
    have h0 := h5 r0 (by simp)
    rw [hall.1] at h0
    obtain ⟨y0, g0, t0⟩ := h0
    obtain ⟨a1, a2⟩ := text_rows lines 108 rs hall.2 fun r hr => h5 r (by simp [hr])
    cases blocks with
    | nil => simp at h6
    | cons b0 bs =>
      simp only [List.map_cons, List.cons.injEq] at h6
      obtain ⟨h6a, h6b⟩ := h6
      rw [g0, t0] at h6a
      have e0 : b0.height = 108 := congrArg Prod.fst h6a
      have e1 : b0.inner = [] := congrArg Prod.snd h6a
      have hov : overlaps 0 0 ((r0 :: rs).map fun r => (r.y, r.height)) = 0 :: (lineTops 108 lines).map fun _ => 0 := by
        rw [List.map_cons, a1, y0, g0]
        show (0 + (0 - 0)) :: overlaps (0 + 108) (0 + (0 - 0)) _ = _
        rw [show 0 + (0 - 0) = 0 by omega, show 0 + 108 = 108 by omega, no_overlaps lines 108 108 (Nat.le_refl _)]
      have hys : rs.map (·.y) = lineTops 108 lines := by
        have := congrArg (List.map Prod.fst) a1
        simpa [Function.comp_def] using this
      rw [hov] at h7
      have hz : ∀ (rs : List WebRow) (ts : List Nat), rs.map (·.y) = ts →
          (rs.zip (ts.map fun _ => 0)).map (fun p => p.1.y + p.2) = ts := by
        intro rs
        induction rs with
        | nil => intro ts e; subst e; rfl
        | cons r rs ih =>
          intro ts e
          subst e
          simp only [List.map_cons, List.zip_cons_cons, Nat.add_zero]
          rw [ih _ rfl]
      rw [List.zip_cons_cons, List.map_cons, hz rs _ hys, y0] at h7
      unfold tops at h7
      rw [List.cons.injEq, e0] at h7
      obtain ⟨m1, h7⟩ := h7
      have m0 : b0.margin = 0 := by simpa using m1
      clear m1
      rw [m0] at h7
      have h7 : tops 108 bs = lineTops 108 lines := h7
      have hh : bs.map (·.height) = rs.map (·.height) := by
        have := congrArg (List.map Prod.fst) h6b
        simpa [Function.comp_def] using this
      have hi : bs.map (·.inner) = rs.map (·.html) := by
        have := congrArg (List.map Prod.snd) h6b
        simpa [Function.comp_def] using this
      have hg : rs.map (·.height) = (lineTops 108 lines).map fun _ => 24 := by
        have := congrArg (List.map Prod.snd) a1
        simpa [Function.comp_def] using this
      have hbot : bottom 108 bs = WebRow.lastEnd (r0 :: rs) := by
        rw [bottom_last 108 bs (rs.map fun r => (r.y, r.height)) (by rw [h7, ← hys, List.map_map]; rfl) (by rw [hh, List.map_map]; rfl)]
        unfold WebRow.lastEnd
        rw [List.getLast?_cons, List.getLast?_map]
        cases rs.getLast? with
        | none => show 108 = r0.y + r0.height; omega
        | some r => rfl
      have hle : WebRow.lastEnd (r0 :: rs) ≤ 108 + 24 * lines.length := by
        refine getD_le ?_
        intro r hr
        rcases List.mem_cons.1 hr with rfl | hr
        · omega
        · have : (r.y, r.height) ∈ (lineTops 108 lines).map (fun t => (t, 24)) := by rw [← a1]; exact List.mem_map.2 ⟨r, hr, rfl⟩
          obtain ⟨t, ht, e⟩ := List.mem_map.1 this
          obtain ⟨e1, e2⟩ := Prod.mk.inj e
          have := last_line lines 108 t ht
          omega
      refine ⟨pad, b0, bs, ?_, ?_, ?_, h7, ?_, ?_⟩
      · rw [h1]
        have u1 : "\"width: 649px; padding-left: 20px; padding-right: 20px; padding-bottom: ".toList =
            "\"".toList ++ "width: 649px; padding-left: 20px; padding-right: 20px; padding-bottom: ".toList := by decide +kernel
        have u2 : "px;\"><article>".toList = "px;".toList ++ "\"><article>".toList := by decide +kernel
        rw [u1, u2]
        simp only [List.append_assoc]
      · cases b0; dsimp only at e0 e1 m0; subst e0 e1 m0; rfl
      · intro b hb
        have : b.height ∈ bs.map (·.height) := List.mem_map.2 ⟨b, hb, rfl⟩
        rw [hh, hg] at this
        obtain ⟨_, _, e⟩ := List.mem_map.1 this
        exact e.symm
      · rw [hi]; exact a2
      · have := h2 rfl
        dsimp only at this
        omega

/-- C98. A plain receipt as a web page: every list of lines of at most 50 printable ASCII characters (`{` excepted, `C74_substituted`), each
followed by a line feed, gives one page: 108 dots of space, then line by line, each at its height, its words in the order of the text,
each at its column, in plain black; and space at the end so that the page is 24 dots high for every line. -/
theorem C98_receipt : ∃ head : Str, ∀ (gs : Canvas.Glyphs) (png : Png) (_ : ∀ w h b, '{' ∉ png w h b) (ext : Ext) (lines : List (List Byte))
    (_ : ∀ l ∈ lines, plainLine l) (_ : ∀ l ∈ lines, 123 ∉ l) (outs errs r),
    render (htmlRenderer gs png) ext (Renderer.new HtmlRenderer.new) (receiptBytes lines) = .ok (outs, errs, r) →
    ∃ out, outs = [out] ∧ IsReceiptPage head out lines := by
  obtain ⟨head, hw⟩ := C86_web_pages
  refine ⟨head, ?_⟩
  intro gs png hpng ext lines hl hb outs errs r h
  rw [← receiptItems_bytes] at h
  have h1 := hw gs png hpng ext _ (receiptItems_wf hl) (receiptItems_separated lines) (receiptItems_end lines) (receipt_fair lines [])
    (receipt_braces hl hb) outs errs r h
  rw [receipt_docs gs hl] at h1
  have hs : ¬ ∃ it ∈ receiptItems lines, it.isSymbol := by
    rintro ⟨it, hi, hsy⟩
    unfold receiptItems lineItems at hi
    simp only [List.mem_flatMap, List.mem_append, List.mem_singleton] at hi
    obtain ⟨l, _, h2⟩ := hi
    rcases h2 with h2 | rfl
    · split at h2
      · simp at h2
      · simp only [List.mem_singleton] at h2; subst h2; exact hsy
    · exact hsy
  rcases h1 with _ | ⟨h2, h3⟩
  cases h3
  refine ⟨_, rfl, receipt_page (png := png) ?_⟩
  obtain ⟨pad, rows, blocks, c1, c2, c3, c4, c5⟩ := h2
  exact ⟨pad, rows, blocks, c1, c2, c3, fun hx => hs (c4 hx), c5⟩

/-- C98, and the program does make it: every receipt of up to 8 million bytes. -/
theorem C98_shown : ∃ head : Str, ∀ (gs : Canvas.Glyphs) (png : Png) (_ : ∀ w h b, '{' ∉ png w h b) (ext : Ext) (_ : ExtOk ext)
    (lines : List (List Byte)) (_ : ∀ l ∈ lines, plainLine l) (_ : ∀ l ∈ lines, 123 ∉ l) (_ : (receiptBytes lines).length ≤ 8000000),
    ∃ out errs r, render (htmlRenderer gs png) ext (Renderer.new HtmlRenderer.new) (receiptBytes lines) = .ok ([out], errs, r) ∧
      IsReceiptPage head out lines := by
  obtain ⟨head, hw⟩ := C98_receipt
  refine ⟨head, ?_⟩
  intro gs png hpng ext hx lines hl hb hB
  obtain ⟨cmds, hp, ht⟩ := receipt_textual hl
  obtain ⟨outs, errs, r, h⟩ := C65_html_text gs png hx hp ht hB
  obtain ⟨out, rfl, h1⟩ := hw gs png hpng ext lines hl hb outs errs r h
  exact ⟨out, errs, r, h, h1⟩

/-- The receipt of C96 meets the hypotheses; its lines are at 108 and 156, and a line of two words has them at columns 0 and 3. -/
example : (∀ l ∈ shortReceipt, plainLine l) ∧ (∀ l ∈ shortReceipt, 123 ∉ l) ∧ (receiptBytes shortReceipt).length ≤ 8000000 ∧
    lineTops 108 shortReceipt = [108, 156] ∧ columns 0 (words "ab cd".toList) = [(0, "ab ".toList), (3, "cd".toList)] := by
  decide +kernel

end Thermal
