import Verif.Spec.Receipt
import Verif.Props.Dots
import Verif.Props.ImageTotal
/-
C96: a plain receipt.
-/
namespace Thermal
open Spec Renderer ImageRenderer

variable {ext : Ext}

/-! ### The stream -/

/-- The items of a receipt. -/
def lineItems (l : List Byte) : List Item := (if l = [] then [] else [.text l]) ++ [.fixed linefeedCmd []]

def receiptItems (lines : List (List Byte)) : List Item := lines.flatMap lineItems

theorem receiptItems_bytes (lines : List (List Byte)) : streamBytes (receiptItems lines) = receiptBytes lines := by
  induction lines with
  | nil => rfl
  | cons l ls ih =>
    unfold streamBytes receiptItems receiptBytes at ih ⊢
    rw [List.flatMap_cons, List.flatMap_append, ih, List.flatMap_cons]
    congr 1
    unfold lineItems
    split
    · next e => subst e; rfl
    · rfl

theorem receiptItems_wf {lines : List (List Byte)} (hl : ∀ l ∈ lines, plainLine l) : ∀ it ∈ receiptItems lines, it.WF := by
  intro it h
  unfold receiptItems lineItems at h
  simp only [List.mem_flatMap, List.mem_append, List.mem_singleton] at h
  obtain ⟨l, h1, h2⟩ := h
  rcases h2 with h2 | rfl
  · split at h2
    · simp at h2
    · next hne =>
      simp only [List.mem_singleton] at h2
      subst h2
      refine ⟨hne, ?_⟩
      intro b hb
      obtain ⟨h3, h4⟩ := (hl l h1).2 b hb
      revert h3 h4
      exact byte_all (P := fun b => 32 ≤ b → b ≤ 126 → opener b = false) (by decide +kernel) b
  · exact ⟨by decide +kernel, rfl⟩

theorem receiptItems_separated (lines : List (List Byte)) : separated (receiptItems lines) := by
  have key : ∀ l : List Byte, ∀ rest : List Item, separated rest → separated (lineItems l ++ rest) := by
    intro l rest h
    have h1 : separated (Item.fixed linefeedCmd [] :: rest) := by
      cases rest with
      | nil => trivial
      | cons a rest => exact ⟨by simp [Item.isText], h⟩
    unfold lineItems
    split
    · exact h1
    · exact ⟨by simp [Item.isText], h1⟩
  induction lines with
  | nil => trivial
  | cons l ls ih => exact key l _ ih

theorem receiptItems_end (lines : List (List Byte)) : ∀ it ∈ (receiptItems lines).getLast?, it.endSafe := by
  intro it h
  have h := List.mem_of_getLast? h
  unfold receiptItems lineItems at h
  simp only [List.mem_flatMap, List.mem_append, List.mem_singleton] at h
  obtain ⟨l, h1, h2⟩ := h
  rcases h2 with h2 | rfl
  · split at h2
    · simp at h2
    · simp only [List.mem_singleton] at h2; subst h2; simp [Item.endSafe]
  · simp [Item.endSafe]

/-! ### The reference printer -/

/-- Only text waits. -/
def idle (W : List Run) : Press := { Press.initial with desk := { Desk.initial with waiting := W } }

theorem idle_text (W : List Run) (l : List Byte) :
    (idle W).step ext (.text l) = idle (W ++ [(Style.initial.textOf { textCmd with data := l }, Style.initial.look)]) := rfl

theorem idle_feed (W : List Run) : (idle W).step ext (.fixed linefeedCmd []) = idle (W ++ [(['\n'], Style.initial.look)]) := rfl

/-- The look of plain text. -/
abbrev plain : CharLook := Style.initial.look

theorem ascii_text {l : List Byte} (hl : ∀ b ∈ l, 32 ≤ b ∧ b ≤ 126) :
    Style.initial.textOf { textCmd with data := l } = l.map fun b => Char.ofNat b.toNat := by
  have h1 : ∀ b : Byte, 32 ≤ b → b ≤ 126 → byteText 0 0 b = [Char.ofNat b.toNat] :=
    byte_all (P := fun b => 32 ≤ b → b ≤ 126 → byteText 0 0 b = [Char.ofNat b.toNat]) (by decide +kernel)
  show l.flatMap (byteText 0 0) = _
  induction l with
  | nil => rfl
  | cons b l ih =>
    obtain ⟨h2, h3⟩ := hl b (by simp)
    rw [List.flatMap_cons, h1 b h2 h3, ih fun x hx => hl x (by simp [hx])]
    rfl

/-- The characters of a line. -/
def asciiOf (l : List Byte) : Str := l.map fun b => Char.ofNat b.toNat

/-- The runs of a line. -/
def lineRuns (l : List Byte) : List Run := (if l = [] then [] else [(asciiOf l, plain)]) ++ [(['\n'], plain)]

theorem receipt_fold {lines : List (List Byte)} (hl : ∀ l ∈ lines, plainLine l) (W : List Run) :
    (receiptItems lines).foldl (Press.step ext) (idle W) = idle (W ++ lines.flatMap lineRuns) := by
  induction lines generalizing W with
  | nil => simp [receiptItems]
  | cons l ls ih =>
    have h1 : receiptItems (l :: ls) = lineItems l ++ receiptItems ls := rfl
    have h2 : (lineItems l).foldl (Press.step ext) (idle W) = idle (W ++ lineRuns l) := by
      unfold lineItems lineRuns
      split
      · exact idle_feed W
      · show ((idle W).step ext (.text l)).step ext (.fixed linefeedCmd []) = _
        rw [idle_text, idle_feed, ascii_text (hl l (by simp)).2, List.append_assoc]
        rfl
    rw [h1, List.foldl_append, h2, ih fun x hx => hl x (by simp [hx])]
    simp

theorem idle_cuts (t : Str) : Run.sets 0 609 (t, plain) := by
  refine ⟨?_, .inl rfl⟩
  intro w _
  left
  show 12 * 12 ≤ 609
  decide

theorem receipt_fair (lines : List (List Byte)) (W : List Run) : (idle W).fairs ext (receiptItems lines) := by
  have f1 : ∀ W l, (idle W).fair ext (.text l) := by
    intro W l
    refine ⟨?_, trivial⟩
    intro c hc
    simp only [Item.commands, List.mem_singleton] at hc
    subst hc
    exact ⟨fun _ => trivial, id, idle_cuts _⟩
  have f2 : ∀ W, (idle W).fair ext (.fixed linefeedCmd []) := by
    intro W
    refine ⟨?_, trivial⟩
    intro c hc
    simp only [Item.commands, List.mem_singleton] at hc
    subst hc
    exact ⟨fun _ => trivial, id, idle_cuts _⟩
  induction lines generalizing W with
  | nil => trivial
  | cons l ls ih =>
    have h1 : receiptItems (l :: ls) = lineItems l ++ receiptItems ls := rfl
    rw [h1]
    unfold lineItems
    split
    · exact ⟨f2 _, ih _⟩
    · exact ⟨f1 _ _, f2 _, ih _⟩

/-! ### The typesetter -/

/-- Words set one after the other. -/
def setInLine : Nat → List Str → List (Nat × Run)
  | _, [] => []
  | x, w :: ws => (x, (w, plain)) :: setInLine (x + w.length * 12) ws

theorem words_flatten (t : Str) : (words t).flatten = t := by
  induction t with
  | nil => rfl
  | cons c t ih =>
    unfold words
    split
    · simp [ih]
    · split
      · next e => rw [e] at ih; simp only [List.flatten_nil] at ih; subst ih; rfl
      · next w ws e => rw [e] at ih; simp only [List.flatten_cons] at ih ⊢; rw [List.cons_append, ih]

theorem set_words (tabs : List Nat) (ws : List Str) (x y : Nat) (line : List (Nat × Run)) (done) (hn : '\n' ∉ ws.flatten) (ht : '\t' ∉ ws.flatten)
    (hx : x + ws.flatten.length * 12 ≤ 609) :
    (ws.map fun w => (w, plain)).foldl (Carriage.word 609 24 tabs) ⟨x, y, line, done⟩ =
      ⟨x + ws.flatten.length * 12, y, line ++ setInLine x ws, done⟩ := by
  induction ws generalizing x line with
  | nil => simp [setInLine]
  | cons w ws ih =>
    simp only [List.flatten_cons, List.mem_append, not_or, List.length_append] at hn ht hx
    have h1 : Carriage.word 609 24 tabs ⟨x, y, line, done⟩ (w, plain) = ⟨x + w.length * 12, y, line ++ [(x, (w, plain))], done⟩ := by
      unfold Carriage.word
      rw [if_neg (fun e => hn.1 (by rw [show w = ['\n'] from e]; simp)), if_neg (fun e => ht.1 (by rw [show w = ['\t'] from e]; simp))]
      have hw : Run.width (w, plain) = w.length * 12 := rfl
      simp only [hw]
      rw [if_pos (show x + w.length * 12 ≤ 609 by omega)]
      rfl
    rw [List.map_cons, List.foldl_cons, h1, ih _ _ hn.2 ht.2 (by omega)]
    simp only [List.flatten_cons, List.length_append, setInLine, List.append_assoc, List.singleton_append, Carriage.mk.injEq, and_true, true_and]
    omega

theorem setInLine_height (ws : List Str) (x h : Nat) (hh : 24 ≤ h) : (setInLine x ws).foldl (fun h p => max h p.2.2.cell.2) h = h := by
  induction ws generalizing x with
  | nil => rfl
  | cons w ws ih =>
    unfold setInLine
    rw [List.foldl_cons]
    have : max h (x, (w, plain)).2.2.cell.2 = h := by show max h 24 = h; omega
    rw [this, ih]

theorem setInLine_top (ws : List Str) (x : Nat) (hne : ws ≠ []) : (setInLine x ws).foldl (fun h p => max h p.2.2.cell.2) 0 = 24 := by
  cases ws with
  | nil => exact absurd rfl hne
  | cons w ws => exact setInLine_height ws _ 24 (by omega)

/-- The lines of a receipt, as they are set from a height on. -/
def setLines : Nat → List (List Byte) → List (Nat × List (Nat × Run))
  | _, [] => []
  | y, l :: ls => (y, setInLine 0 (words (asciiOf l))) :: setLines (y + 24) ls

theorem ascii_clean {l : List Byte} (hl : plainLine l) : '\n' ∉ asciiOf l ∧ '\t' ∉ asciiOf l := by
  have h1 : ∀ b : Byte, 32 ≤ b → b ≤ 126 → Char.ofNat b.toNat ≠ '\n' ∧ Char.ofNat b.toNat ≠ '\t' :=
    byte_all (P := fun b => 32 ≤ b → b ≤ 126 → Char.ofNat b.toNat ≠ '\n' ∧ Char.ofNat b.toNat ≠ '\t') (by decide +kernel)
  constructor
  all_goals
    intro h
    unfold asciiOf at h
    obtain ⟨b, hb, e⟩ := List.mem_map.1 h
    obtain ⟨h2, h3⟩ := h1 b (hl.2 b hb).1 (hl.2 b hb).2
    contradiction

theorem set_receipt {lines : List (List Byte)} (hl : ∀ l ∈ lines, plainLine l) (tabs : List Nat) (y : Nat) (done) :
    ((lines.flatMap lineRuns).flatMap fun r => (words r.1).map fun w => (w, r.2)).foldl (Carriage.word 609 24 tabs) ⟨0, y, [], done⟩ =
      ⟨0, y + 24 * lines.length, [], done ++ setLines y lines⟩ := by
  induction lines generalizing y done with
  | nil => simp [setLines]
  | cons l ls ih =>
    have hp := hl l (by simp)
    obtain ⟨c1, c2⟩ := ascii_clean hp
    have h1 : (lineRuns l).flatMap (fun r => (words r.1).map fun w => (w, r.2)) =
        (words (asciiOf l)).map (fun w => (w, plain)) ++ [(['\n'], plain)] := by
      unfold lineRuns
      split
      · next e => subst e; rfl
      · rw [List.flatMap_append]; simp; rfl
    rw [List.flatMap_cons, List.flatMap_append, h1, List.foldl_append, List.foldl_append,
      set_words tabs _ 0 y [] done (by rw [words_flatten]; exact c1) (by rw [words_flatten]; exact c2)
        (by rw [words_flatten]; unfold asciiOf; rw [List.length_map]; have := hp.1; omega)]
    have h2 : ∀ x, [((['\n'], plain) : Run)].foldl (Carriage.word 609 24 tabs) ⟨x, y, [] ++ setInLine 0 (words (asciiOf l)), done⟩ =
        ⟨0, y + 24, [], done ++ [(y, setInLine 0 (words (asciiOf l)))]⟩ := by
      intro x
      show Carriage.down 24 _ = _
      unfold Carriage.down
      simp only [List.nil_append, setInLine_height _ 0 24 (Nat.le_refl _)]
    rw [h2, ih fun x hx => hl x (by simp [hx])]
    simp only [setLines, List.length_cons, List.append_assoc, List.singleton_append, Carriage.mk.injEq, and_true, true_and]
    omega

theorem receipt_acts {lines : List (List Byte)} (hl : ∀ l ∈ lines, plainLine l) :
    printedActs ext (receiptItems lines) = [.newSheet 108] ++
      ((setLines 108 lines).flatMap fun l => setLine 0 609 l.1 l.2).map (fun l => .put false (.line l)) ++
      [.endSheet false (108 + 24 * lines.length)] := by
  unfold printedActs
  have h1 : Press.initial = idle [] := rfl
  rw [h1, receipt_fold hl, List.nil_append]
  have h2 : typeset 609 24 initialTabs 0 108 (lines.flatMap lineRuns) = ⟨0, 108 + 24 * lines.length, [], setLines 108 lines⟩ := by
    unfold typeset
    rw [set_receipt hl]
    rfl
  have h3 : (idle (lines.flatMap lineRuns)).flush.acts = [.newSheet 108] ++
      ((typeset 609 24 initialTabs 0 108 (lines.flatMap lineRuns)).lines 0 609).map (fun l => .put false (.line l)) := rfl
  have h4 : (idle (lines.flatMap lineRuns)).flush.desk.paperY = (typeset 609 24 initialTabs 0 108 (lines.flatMap lineRuns)).y := rfl
  have h5 : (idle (lines.flatMap lineRuns)).flush.desk.onPage = false := rfl
  dsimp only
  rw [h3, h4, h5, h2]
  simp [Carriage.lines, setLine]

/-! ### Ink -/

theorem chars_append {S : Type} (M : Medium S) (gs : Canvas.Glyphs) (y : Nat) (a b : Str) (x : Nat) (P : S) :
    plain.chars M gs y (a ++ b) x P = plain.chars M gs y b (x + a.length * 12) (plain.chars M gs y a x P) := by
  induction a generalizing x P with
  | nil => simp [CharLook.chars]
  | cons c a ih =>
    have h1 : ∀ t P, plain.chars M gs y (c :: t) x P = plain.chars M gs y t (x + 12)
        (if (plain.glyph gs c).control then P else M.put P (plain.dot gs c) ⟨x, y, plain.cell.1, plain.cell.2⟩) := fun _ _ => rfl
    rw [List.cons_append, h1, h1, ih, List.length_cons, show x + 12 + a.length * 12 = x + (a.length + 1) * 12 by omega]

theorem paint_line {S : Type} (M : Medium S) (gs : Canvas.Glyphs) (ws : List Str) (x y : Nat) (P : S) :
    ((setInLine x ws).map fun p => (⟨⟨0 + 0 + p.1, y, p.2.width, p.2.2.cell.2⟩, p.2.1, p.2.2⟩ : Spec.Piece)).foldl (Spec.Piece.paint M gs 24) P =
      plain.chars M gs y ws.flatten x P := by
  induction ws generalizing x P with
  | nil => rfl
  | cons w ws ih =>
    unfold setInLine
    rw [List.map_cons, List.foldl_cons, ih, List.flatten_cons, chars_append]
    congr 1
    show Spec.Piece.paint M gs 24 P ⟨⟨0 + 0 + x, y, _, _⟩, w, plain⟩ = _
    rw [Nat.zero_add]
    have h1 : baselineOf plain.font (24 - plain.cell.2) = 0 := by decide
    have h2 : plain.underlined = false := by decide
    have h3 : ¬ (plain.strike > 0) := by decide
    have h4 : plain.upsideDown = false := by decide
    unfold Spec.Piece.paint
    dsimp only
    rw [h1, h2, if_neg h3, h4]
    rfl

theorem paint_words {S : Type} (M : Medium S) (gs : Canvas.Glyphs) (t : Str) (y : Nat) (P : S) :
    (setLine 0 609 y (setInLine 0 (words t))).foldl (fun P l => (Thing.line l).paint M gs P) P = plain.chars M gs y t 0 P := by
  rw [show plain.chars M gs y t 0 P = plain.chars M gs y (words t).flatten 0 P by rw [words_flatten]]
  rw [← paint_line]
  cases h : words t with
  | nil => rfl
  | cons w ws =>
    show (Thing.line _).paint M gs P = _
    rw [← h]
    have h1 := setInLine_top (words t) 0 (by rw [h]; simp)
    unfold Thing.paint
    dsimp only
    rw [← h1]
    rw [h]
    rfl

/-- The lines, printed one below the other. -/
def inked (gs : Canvas.Glyphs) : Nat → List (List Byte) → Roll → Roll
  | _, [], R => R
  | y, l :: ls, R => inked gs (y + 24) ls (plain.chars (paperRoll 609) gs y (asciiOf l) 0 R)

theorem sheets_lines (gs : Canvas.Glyphs) (ls : List TextLine) (R : Roll) (pg : Page) (done : List Roll) :
    (ls.map fun l => Act.put false (.line l)).foldl (Sheets.step gs 609) ⟨some R, pg, done⟩ =
      ⟨some (ls.foldl (fun P l => (Thing.line l).paint (paperRoll 609) gs P) R), pg, done⟩ := by
  induction ls generalizing R with
  | nil => rfl
  | cons l ls ih =>
    rw [List.map_cons, List.foldl_cons, List.foldl_cons, ← ih]
    rfl

theorem inked_lines (gs : Canvas.Glyphs) (lines : List (List Byte)) (y : Nat) (R : Roll) :
    ((setLines y lines).flatMap fun l => setLine 0 609 l.1 l.2).foldl (fun P l => (Thing.line l).paint (paperRoll 609) gs P) R =
      inked gs y lines R := by
  induction lines generalizing y R with
  | nil => rfl
  | cons l ls ih =>
    unfold setLines inked
    rw [List.flatMap_cons, List.foldl_append, ih, paint_words]

theorem receipt_sheets (gs : Canvas.Glyphs) {lines : List (List Byte)} (hl : ∀ l ∈ lines, plainLine l) :
    printedSheets gs 609 (printedActs ext (receiptItems lines)) = [(inked gs 108 lines .blank).fedTo (108 + 24 * lines.length)] := by
  rw [receipt_acts hl]
  unfold printedSheets
  rw [List.foldl_append, List.foldl_append]
  have h1 : ([Act.newSheet 108]).foldl (Sheets.step gs 609) .none = ⟨some .blank, .empty, []⟩ := rfl
  rw [h1, sheets_lines, inked_lines]
  rfl

/-! ### Dots -/

/-- A dot after a character has been printed over it. -/
def overCell (gs : Canvas.Glyphs) (old : RGBA) (ch : Char) (x y : Nat) : RGBA :=
  if (plain.glyph gs ch).control then old else overprint old (plain.dot gs ch x y)

theorem chars_dots (gs : Canvas.Glyphs) (y : Nat) (t : Str) (k : Nat) (R : Roll) (X Y : Nat) :
    (plain.chars (paperRoll 609) gs y t (12 * k) R).dots X Y =
      if y ≤ Y ∧ Y < y + 24 ∧ k ≤ X / 12 then (t[X / 12 - k]?).elim (R.dots X Y) fun ch => overCell gs (R.dots X Y) ch (X % 12) (Y - y)
      else R.dots X Y := by
  induction t generalizing k R with
  | nil => simp [CharLook.chars]
  | cons c t ih =>
    unfold CharLook.chars
    have h1 : 12 * k + plain.cell.1 = 12 * (k + 1) := by show 12 * k + 12 = _; omega
    rw [h1, ih]
    have hone : ∀ X Y, (if (plain.glyph gs c).control then R else (paperRoll 609).put R (plain.dot gs c) ⟨12 * k, y, plain.cell.1, plain.cell.2⟩).dots X Y =
        if y ≤ Y ∧ Y < y + 24 ∧ X / 12 = k then overCell gs (R.dots X Y) c (X % 12) (Y - y) else R.dots X Y := by
      intro X Y
      unfold overCell
      split
      · simp
      · show Spec.drawn overprint R.dots (plain.dot gs c) (12 * k) y 12 24 X Y = _
        unfold Spec.drawn
        by_cases hc : y ≤ Y ∧ Y < y + 24 ∧ X / 12 = k
        · rw [if_pos hc, if_pos (show inRect (12 * k) y 12 24 X Y from ⟨by omega, by omega, by omega, by omega⟩)]
          congr 2
          omega
        · rw [if_neg hc, if_neg (show ¬ inRect (12 * k) y 12 24 X Y from fun ⟨a, b, c, d⟩ => hc ⟨by omega, by omega, by omega⟩)]
    rw [hone]
    by_cases hY : y ≤ Y ∧ Y < y + 24
    · by_cases h2 : X / 12 = k
      · rw [if_neg (show ¬ (y ≤ Y ∧ Y < y + 24 ∧ k + 1 ≤ X / 12) by omega), if_pos (show y ≤ Y ∧ Y < y + 24 ∧ X / 12 = k from ⟨hY.1, hY.2, h2⟩),
          if_pos (show y ≤ Y ∧ Y < y + 24 ∧ k ≤ X / 12 by omega), h2, Nat.sub_self]
        rfl
      · simp only [if_neg (show ¬ (y ≤ Y ∧ Y < y + 24 ∧ X / 12 = k) by omega)]
        by_cases h3 : k + 1 ≤ X / 12
        · rw [if_pos (show y ≤ Y ∧ Y < y + 24 ∧ k + 1 ≤ X / 12 from ⟨hY.1, hY.2, h3⟩), if_pos (show y ≤ Y ∧ Y < y + 24 ∧ k ≤ X / 12 by omega),
            show X / 12 - k = (X / 12 - (k + 1)) + 1 by omega, List.getElem?_cons_succ]
        · rw [if_neg (show ¬ (y ≤ Y ∧ Y < y + 24 ∧ k + 1 ≤ X / 12) by omega), if_neg (show ¬ (y ≤ Y ∧ Y < y + 24 ∧ k ≤ X / 12) by omega)]
    · rw [if_neg (show ¬ (y ≤ Y ∧ Y < y + 24 ∧ k + 1 ≤ X / 12) by omega), if_neg (show ¬ (y ≤ Y ∧ Y < y + 24 ∧ X / 12 = k) by omega),
        if_neg (show ¬ (y ≤ Y ∧ Y < y + 24 ∧ k ≤ X / 12) by omega)]

theorem chars_reach (gs : Canvas.Glyphs) (y : Nat) (t : Str) (x : Nat) (R : Roll) :
    (plain.chars (paperRoll 609) gs y t x R).reach ≤ max R.reach (y + 24) := by
  induction t generalizing x R with
  | nil => exact Nat.le_max_left ..
  | cons c t ih =>
    unfold CharLook.chars
    refine Nat.le_trans (ih _ _) ?_
    split
    · omega
    · have : ((paperRoll 609).put R (plain.dot gs c) ⟨x, y, plain.cell.1, plain.cell.2⟩).reach ≤ max R.reach (y + 24) := by
        show (if x < 609 then max R.reach (y + 24) else R.reach) ≤ _
        split <;> omega
      omega

theorem inked_reach (gs : Canvas.Glyphs) (lines : List (List Byte)) (y : Nat) (R : Roll) :
    (inked gs y lines R).reach ≤ max R.reach (y + 24 * lines.length) := by
  induction lines generalizing y R with
  | nil => exact Nat.le_max_left ..
  | cons l ls ih =>
    unfold inked
    have h1 := ih (y + 24) (plain.chars (paperRoll 609) gs y (asciiOf l) 0 R)
    have h2 := chars_reach gs y (asciiOf l) 0 R
    rw [List.length_cons]
    omega

theorem inked_dots (gs : Canvas.Glyphs) (lines : List (List Byte)) (y : Nat) (R : Roll) (X Y : Nat) :
    (inked gs y lines R).dots X Y =
      if y ≤ Y then ((lines.getD ((Y - y) / 24) [])[X / 12]?).elim (R.dots X Y) fun b =>
        overCell gs (R.dots X Y) (Char.ofNat b.toNat) (X % 12) ((Y - y) % 24)
      else R.dots X Y := by
  induction lines generalizing y R with
  | nil => simp [inked]
  | cons l ls ih =>
    unfold inked
    rw [ih]
    have h0 := chars_dots gs y (asciiOf l) 0 R X Y
    rw [Nat.mul_zero] at h0
    rw [h0]
    by_cases h1 : y ≤ Y
    · rw [if_pos h1]
      by_cases h2 : y + 24 ≤ Y
      · rw [if_pos h2, if_neg (by omega), show (Y - y) / 24 = (Y - (y + 24)) / 24 + 1 by omega, List.getD_cons_succ,
          show (Y - y) % 24 = (Y - (y + 24)) % 24 by omega]
      · rw [if_neg h2, if_pos (by omega), show (Y - y) / 24 = 0 by omega, show (Y - y) % 24 = Y - y by omega, List.getD_cons_zero, Nat.sub_zero]
        unfold asciiOf
        rw [List.getElem?_map]
        cases l[X / 12]? <;> rfl
    · rw [if_neg h1, if_neg (by omega), if_neg (by omega)]

theorem plain_grey (gs : Canvas.Glyphs) (b : Byte) (x y : Nat) :
    overCell gs ⟨255, 255, 255, 255⟩ (Char.ofNat b.toNat) x y =
      (let v := glyphGrey (gs.glyph false false .A 1 (Char.ofNat b.toNat)) x y
       ⟨v, v, v, 255⟩) := by
  have hs : ∀ a : Byte, overprint ⟨255, 255, 255, 255⟩ (shade ⟨255, 255, 255, 255⟩ ⟨0, 0, 0, 255⟩ a) = ⟨255 - a, 255 - a, 255 - a, 255⟩ :=
    byte_all (P := fun a => overprint ⟨255, 255, 255, 255⟩ (shade ⟨255, 255, 255, 255⟩ ⟨0, 0, 0, 255⟩ a) = ⟨255 - a, 255 - a, 255 - a, 255⟩)
      (by decide +kernel)
  have hw : overprint ⟨255, 255, 255, 255⟩ ⟨255, 255, 255, 255⟩ = ⟨255, 255, 255, 255⟩ := by decide +kernel
  unfold overCell glyphGrey
  have hg : plain.glyph gs (Char.ofNat b.toNat) = gs.glyph false false .A 1 (Char.ofNat b.toNat) := rfl
  have hd : plain.dot gs (Char.ofNat b.toNat) x y = plain.large gs (Char.ofNat b.toNat) x y := rfl
  rw [hd]
  unfold CharLook.large
  rw [hg]
  generalize gs.glyph false false .A 1 (Char.ofNat b.toNat) = g
  cases hc : g.control
  · simp only [Bool.false_eq_true, if_false, true_and]
    by_cases hin : g.xOffset ≤ x ∧ g.yOffset ≤ y ∧ x - g.xOffset < g.width
    · rw [if_pos hin, if_pos hin, List.getD_eq_getElem?_getD]
      cases g.coverage[(y - g.yOffset) * g.width + (x - g.xOffset)]? with
      | none => exact hw
      | some a => exact hs a
    · rw [if_neg hin, if_neg hin]
      exact hw
  · simp

/-! ### The receipt -/

theorem receiptGrey_margin (gs : Canvas.Glyphs) {lines : List (List Byte)} (hl : ∀ l ∈ lines, plainLine l) (x y : Nat) (hx : x < 20 ∨ 629 ≤ x) :
    receiptGrey gs lines x y = 255 := by
  unfold receiptGrey
  split
  · rfl
  · next hn =>
    have h1 : (lines.getD ((y - 108) / 24) []).length ≤ 50 := by
      rw [List.getD_eq_getElem?_getD]
      cases h : lines[(y - 108) / 24]? with
      | none => simp
      | some l => exact (hl l (List.mem_of_getElem? h)).1
    rw [List.getElem?_eq_none (by omega)]

theorem receipt_colour (gs : Canvas.Glyphs) (lines : List (List Byte)) (x y : Nat) :
    (inked gs 108 lines .blank).dots x y =
      ⟨receiptGrey gs lines (20 + x) y, receiptGrey gs lines (20 + x) y, receiptGrey gs lines (20 + x) y, 255⟩ := by
  rw [inked_dots]
  have hb : Roll.blank.dots x y = ⟨255, 255, 255, 255⟩ := rfl
  rw [hb]
  unfold receiptGrey
  rw [Nat.add_sub_cancel_left]
  by_cases h : 108 ≤ y
  · rw [if_pos h, if_neg (by omega)]
    cases (lines.getD ((y - 108) / 24) [])[x / 12]? with
    | none => rfl
    | some b => exact plain_grey gs b _ _
  · rw [if_neg h, if_pos (by omega)]

/-- C96. A plain receipt: the picture of lines of at most 50 printable ASCII characters is 649 dots wide and 108 + 24 n dots high, and
every dot of it is the one of the glyph that belongs there, in black on white; all else is white. -/
theorem C96_receipt (gs : Canvas.Glyphs) {lines : List (List Byte)} (hl : ∀ l ∈ lines, plainLine l) {outs errs r}
    (h : render (imageRenderer gs) ext (Renderer.new (ImageRenderer.new {})) (receiptBytes lines) = .ok (outs, errs, r)) :
    ∃ o, outs = [o] ∧ o.width = 649 ∧ o.height = 108 + 24 * lines.length ∧ o.bytes.length = 3 * (649 * o.height) ∧
      ∀ x y channel, x < 649 → y < o.height → channel < 3 → o.bytes[3 * (y * 649 + x) + channel]? = some (receiptGrey gs lines x y) := by
  rw [← receiptItems_bytes] at h
  have h1 := C83_dots gs (receiptItems_wf hl) (receiptItems_separated lines) (receiptItems_end lines) (receipt_fair lines []) h
  rw [receipt_sheets gs hl] at h1
  obtain ⟨o, ho, rfl⟩ : ∃ o, ShowsSheet o ((inked gs 108 lines .blank).fedTo (108 + 24 * lines.length)) ∧ outs = [o] := by
    cases h1 with
    | cons a b => cases b; exact ⟨_, a, rfl⟩
  obtain ⟨a1, a2, a3, a4⟩ := ho
  have hh : o.height = 108 + 24 * lines.length := by
    rw [a2]
    have h2 := inked_reach gs lines 108 .blank
    have h3 : Roll.blank.reach = 0 := rfl
    show max (inked gs 108 lines .blank).reach (108 + 24 * lines.length) = _
    omega
  have hj : Renderer.jobs gs ext [streamBytes (receiptItems lines)] (Renderer.new (ImageRenderer.new {})) = .ok [o] := by
    simp only [Renderer.jobs, h]
    rfl
  refine ⟨o, rfl, a1, hh, ?_, ?_⟩
  · have := (C55_image_size gs ext {} _ _ hj o (by simp)).2
    rw [a1] at this
    exact this
  · intro x y k hx hy hk
    by_cases hm : x < 20 ∨ 629 ≤ x
    · rw [receiptGrey_margin gs hl x y hm]
      have := C73_margins gs ext {} _ _ hj o (by simp) x y k (by omega) (by omega) hy hk
      rw [a1] at this
      exact this
    · obtain ⟨b1, b2, b3⟩ := a3 (x - 20) y (by omega) hy
      have hd : ((inked gs 108 lines .blank).fedTo (108 + 24 * lines.length)).dots (x - 20) y =
          ⟨receiptGrey gs lines x y, receiptGrey gs lines x y, receiptGrey gs lines x y, 255⟩ := by
        show (inked gs 108 lines .blank).dots (x - 20) y = _
        rw [receipt_colour, show 20 + (x - 20) = x by omega]
      rw [hd] at b1 b2 b3
      rw [show y * 649 + 20 + (x - 20) = y * 649 + x by omega] at b1 b2 b3
      match k, hk with
      | 0, _ => exact b1
      | 1, _ => exact b2
      | 2, _ => exact b3

theorem receipt_textual {lines : List (List Byte)} (hl : ∀ l ∈ lines, plainLine l) :
    ∃ cmds, parseEscPos (receiptBytes lines) = .ok cmds ∧ ∀ c ∈ cmds, ¬ c.isBegin → ¬ c.isEnd → c.textual := by
  rw [← receiptItems_bytes]
  refine ⟨_, C08_stream (receiptItems_wf hl) (receiptItems_separated lines), ?_⟩
  rw [streamCommands_endSafe (receiptItems_end lines)]
  intro c hc hb he
  simp only [List.mem_cons, List.mem_append, List.not_mem_nil, or_false] at hc
  rcases hc with rfl | (hc | hc) | rfl
  · exact absurd (by decide) hb
  · unfold leading at hc
    split at hc
    · split at hc
      · simp only [List.mem_singleton] at hc; subst hc; exact .inr (.inr rfl)
      · simp at hc
    · simp at hc
  · obtain ⟨it, h1, h2⟩ := List.mem_flatMap.1 hc
    unfold receiptItems lineItems at h1
    simp only [List.mem_flatMap, List.mem_append, List.mem_singleton] at h1
    obtain ⟨l, h3, h4⟩ := h1
    rcases h4 with h4 | rfl
    · split at h4
      · simp at h4
      · simp only [List.mem_singleton] at h4; subst h4
        simp only [Item.commands, List.mem_singleton] at h2; subst h2; exact .inl rfl
    · simp only [Item.commands, List.mem_singleton] at h2; subst h2; exact .inl rfl
  · exact absurd (by decide) he

/-- C96, and the program does print it: every receipt of up to 24000 bytes. -/
theorem C96_printed (gs : Canvas.Glyphs) (hx : ExtOk ext) {lines : List (List Byte)} (hl : ∀ l ∈ lines, plainLine l)
    (hB : (receiptBytes lines).length ≤ 24000) :
    ∃ o errs r, render (imageRenderer gs) ext (Renderer.new (ImageRenderer.new {})) (receiptBytes lines) = .ok ([o], errs, r) ∧
      o.width = 649 ∧ o.height = 108 + 24 * lines.length ∧ o.bytes.length = 3 * (649 * o.height) ∧
      ∀ x y channel, x < 649 → y < o.height → channel < 3 → o.bytes[3 * (y * 649 + x) + channel]? = some (receiptGrey gs lines x y) := by
  obtain ⟨cmds, hp, ht⟩ := receipt_textual hl
  obtain ⟨outs, errs, r, h⟩ := C65_image_text gs hx hp ht hB
  obtain ⟨o, rfl, h1⟩ := C96_receipt gs hl h
  exact ⟨o, errs, r, h, h1⟩

/-- Three lines, one of them empty. -/
def shortReceipt : List (List Byte) := [[84, 111, 116, 97, 108], [], [49, 50, 46, 53, 48]]

/-- They meet the hypotheses; with glyphs of two dots the receipt shows the dots of ten characters. -/
example : (∀ l ∈ shortReceipt, plainLine l) ∧ (receiptBytes shortReceipt).length ≤ 24000 ∧
    ((List.range 180).flatMap fun y => (List.range 649).filterMap fun x =>
      if receiptGrey dotty shortReceipt x y = 255 then none else some (x, y)) =
      ((List.range 5).map fun i => (23 + 12 * i, 113)) ++ ((List.range 5).map fun i => (24 + 12 * i, 114)) ++
        ((List.range 5).map fun i => (23 + 12 * i, 161)) ++ ((List.range 5).map fun i => (24 + 12 * i, 162)) := by
  decide +kernel

end Thermal
