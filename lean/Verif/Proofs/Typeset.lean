import Verif.Spec.Typeset
import Verif.Proofs.Layout
import Verif.Proofs.PenArith
import Verif.Proofs.Trace
/-
The layout loop of the program sets words as the reference typesetter does.
-/
namespace Thermal
open Renderer Spec

/-! ### Words, pieces, tab stops -/

/-- Put characters before the first word. -/
def joinFirst (cur : Str) (ws : List Str) : List Str :=
  if cur = [] then ws
  else match ws with
    | [] => [cur]
    | w :: ws => (cur ++ w) :: ws

theorem wordsLoop_words (s cur : Str) : wordsLoop s cur = joinFirst cur (Spec.words s) := by
  induction s generalizing cur with
  | nil => unfold wordsLoop joinFirst Spec.words; rfl
  | cons c s ih =>
    unfold wordsLoop Spec.words
    split
    · rw [ih]
      simp only [joinFirst, if_true]
      split
      · next h => rw [h]; rfl
      · rfl
    · rw [ih]
      rcases hw : Spec.words s with _ | ⟨w, ws⟩ <;> by_cases hc : cur = [] <;> simp [joinFirst, hc]

theorem wordsLoop_eq (s : Str) : wordsLoop s [] = Spec.words s := by
  rw [wordsLoop_words]; rfl

theorem words_ne (s : Str) : ∀ w ∈ Spec.words s, w ≠ [] := by
  induction s with
  | nil => intro w h; simp [Spec.words] at h
  | cons c s ih =>
    intro w h
    unfold Spec.words at h
    split at h
    · rcases List.mem_cons.1 h with rfl | h
      · simp
      · exact ih w h
    · split at h
      · simp only [List.mem_singleton] at h; subst h; simp
      · next w' ws e =>
        rcases List.mem_cons.1 h with rfl | h
        · simp
        · exact ih w (by rw [e]; simp [h])

theorem words_mem (s : Str) : ∀ w ∈ Spec.words s, ∀ ch ∈ w, ch ∈ s := by
  induction s with
  | nil => intro w h; simp [Spec.words] at h
  | cons c s ih =>
    intro w h ch hch
    unfold Spec.words at h
    split at h
    · rcases List.mem_cons.1 h with rfl | h
      · simp only [List.mem_singleton] at hch; simp [hch]
      · exact List.mem_cons_of_mem _ (ih w h ch hch)
    · split at h
      · simp only [List.mem_singleton] at h; subst h; simp only [List.mem_singleton] at hch; simp [hch]
      · next w' ws e =>
        rcases List.mem_cons.1 h with rfl | h
        · rcases List.mem_cons.1 hch with rfl | hch
          · simp
          · exact List.mem_cons_of_mem _ (ih w' (by rw [e]; simp) ch hch)
        · exact List.mem_cons_of_mem _ (ih w (by rw [e]; simp [h]) ch hch)

theorem pieces_nil (k : Nat) (hk : 0 < k) : pieces k [] = [] := by
  unfold pieces
  rw [List.length_nil, Nat.div_eq_of_lt (by omega)]
  rfl

theorem pieces_cons {k : Nat} {s : Str} (hk : 0 < k) (hs : s ≠ []) : pieces k s = s.take k :: pieces k (s.drop k) := by
  have hl : 0 < s.length := List.length_pos_iff.2 hs
  have hc : (s.length + k - 1) / k = ((s.drop k).length + k - 1) / k + 1 := by
    rw [List.length_drop]
    by_cases h : k ≤ s.length
    · rw [show s.length + k - 1 = (s.length - k + k - 1) + k by omega, Nat.add_div_right _ hk]
    · rw [show s.length - k + k - 1 = k - 1 by omega, Nat.div_eq_of_lt (show k - 1 < k by omega),
        show s.length + k - 1 = (s.length - 1) + k by omega, Nat.add_div_right _ hk, Nat.div_eq_of_lt (by omega)]
  unfold pieces
  rw [hc, List.range_succ_eq_map, List.map_cons, List.map_map]
  simp only [Nat.zero_mul, List.drop_zero]
  congr 1
  apply List.map_congr_left
  intro i _
  simp only [Function.comp, List.drop_drop]
  congr 2
  rw [Nat.succ_mul]; omega

theorem chunksAux_pieces {k n : Nat} {s : Str} (hk : 0 < k) (hn : s.length ≤ n) : chunksAux k n s = pieces k s := by
  induction n generalizing s with
  | zero =>
    have : s = [] := List.length_eq_zero_iff.1 (by omega)
    subst this; rw [pieces_nil k hk]; rfl
  | succ n ih =>
    cases s with
    | nil => rw [pieces_nil k hk]; rfl
    | cons c s =>
      rw [pieces_cons hk (by simp), ← ih (by rw [List.length_drop]; simp only [List.length_cons] at hn ⊢; omega)]
      rfl

theorem pieces_ne {k : Nat} {s : Str} (hk : 0 < k) (hs : s ≠ []) : pieces k s ≠ [] := by
  rw [pieces_cons hk hs]; simp

theorem tabStop_find {cw x : Nat} {ts : List Byte} {p : Nat} {o} (h : tabStop cw x ts p = .ok o) :
    o = ((List.range ts.length).map fun i => p + ((ts.map (·.toNat)).take i).sum * cw).find? (x ≤ ·) := by
  induction ts generalizing p with
  | nil => simp only [tabStop, ok_ok] at h; subst h; rfl
  | cons t ts ih =>
    unfold tabStop at h
    rw [List.length_cons, List.range_succ_eq_map, List.map_cons, List.find?_cons]
    simp only [List.take_zero, List.sum_nil, Nat.zero_mul, Nat.add_zero]
    split at h
    · next hx =>
      rw [ok_ok] at h; subst h
      have : decide (x ≤ p) = true := decide_eq_true hx
      rw [this]
    · next hx =>
      have : decide (x ≤ p) = false := decide_eq_false hx
      rw [this]
      simp only [bind_ok, mulU32_ok, addU32_ok] at h
      obtain ⟨_, ⟨_, rfl⟩, _, ⟨_, rfl⟩, h⟩ := h
      rw [ih h, List.map_map]
      congr 1
      apply List.map_congr_left
      intro i _
      simp only [Function.comp, List.map_cons, List.take_succ_cons, List.sum_cons, Nat.add_mul]
      omega

/-! ### The layout loop -/

/-- A span as a run. -/
def runOf (t : TextSpan) : Run := (t.text, lookOf t)

/-- A span with its left edge, in lines that begin at `left`. -/
def placed (left : Nat) (t : TextSpan) : Nat × Run := (t.dimensions.elim 0 (·.x) - left, runOf t)

/-- The top of a line. -/
def topOf (line : List TextSpan) : Nat := (line.head?.bind (·.dimensions)).elim 0 (·.y)

/-- The spans have a place of their size, with this top, not left of the lines. -/
def AllAt (left : Nat) (line : List TextSpan) (y : Nat) : Prop :=
  ∀ t ∈ line, ∃ x, t.dimensions = some ⟨left + x, y, t.text.length * t.characterWidth, t.characterHeight⟩

theorem AllAt.top {left : Nat} {line : List TextSpan} {y : Nat} (h : AllAt left line y) (hne : line ≠ []) : topOf line = y := by
  cases line with
  | nil => exact absurd rfl hne
  | cons t ts => obtain ⟨x, h1⟩ := h t (by simp); simp [topOf, h1]

/-- A layout of the program and a carriage of the typesetter. -/
structure LaySim (left width : Nat) (text : TextContext) (l : Layout) (c : Carriage) : Prop where
  base : l.context.baseX = left
  width : l.context.getWidth = width
  text : l.context.text = text
  x : l.context.getX = left + c.x
  y : l.context.getY = c.y
  line : l.currentLine.map (placed left) = c.line
  tops : AllAt left l.currentLine c.y
  done : (l.lines.filter (· ≠ [])).map (fun line => (topOf line, line.map (placed left))) = c.done.filter (·.2 ≠ [])
  doneTops : ∀ line ∈ l.lines, AllAt left line (topOf line)

theorem enabled_putX (c : Context) (x : Nat) : (c.putX x).pageMode.enabled = c.pageMode.enabled := by
  unfold Context.putX; split <;> simp_all

theorem text_putX (c : Context) (x : Nat) : (c.putX x).text = c.text := by unfold Context.putX; split <;> rfl

theorem enabled_putY (c : Context) (x : Nat) : (c.putY x).pageMode.enabled = c.pageMode.enabled := by
  unfold Context.putY; split <;> simp_all

theorem text_putY (c : Context) (x : Nat) : (c.putY x).text = c.text := by unfold Context.putY; split <;> rfl

theorem runOf_width (t : TextSpan) : (runOf t).width = t.text.length * t.characterWidth := rfl

/-- The pen moves on. -/
theorem LaySim.moveX {left width : Nat} {text : TextContext} {l : Layout} {c : Carriage} (h : LaySim left width text l c) (x : Nat) :
    LaySim left width text { l with context := l.context.putX (left + x) } { c with x := x } :=
  ⟨by rw [← h.base]; exact baseX_putX _ _, by rw [← h.width]; exact getWidth_putX _ _, by rw [← h.text]; exact text_putX _ _,
    getX_putX _ _, by rw [← h.y]; exact getY_putX _ _, h.line, h.tops, h.done, h.doneTops⟩

/-- A span is put on the line; the pen is not moved yet. -/
theorem LaySim.add {left width : Nat} {text : TextContext} {l : Layout} {c : Carriage} (h : LaySim left width text l c) (t : TextSpan) :
    LaySim left width text { l with currentLine := l.currentLine ++ [t.at_ l.context] } { c with line := c.line ++ [(c.x, runOf t)] } := by
  refine ⟨h.base, h.width, h.text, h.x, h.y, ?_, ?_, h.done, h.doneTops⟩
  · dsimp only
    rw [List.map_append, h.line, List.map_singleton]
    have : placed left (t.at_ l.context) = (l.context.getX - left, runOf t) := rfl
    rw [this, h.x, Nat.add_sub_cancel_left]
  · intro s hs
    rcases List.mem_append.1 hs with hs | hs
    · exact h.tops s hs
    · simp only [List.mem_singleton] at hs; subst hs
      exact ⟨c.x, by rw [← h.y, ← h.x]; rfl⟩

theorem LaySim.put {left width : Nat} {text : TextContext} {l : Layout} {c : Carriage} {t : TextSpan} {k : Context} (h : LaySim left width text l c)
    (ho : l.context.offsetX (t.text.length * t.characterWidth) = .ok k) :
    LaySim left width text { l with context := k, currentLine := l.currentLine ++ [t.at_ l.context] } (c.put (runOf t)) := by
  rw [offsetX_ok] at ho
  obtain ⟨_, rfl⟩ := ho
  have := (h.add t).moveX (c.x + t.text.length * t.characterWidth)
  rw [h.x, Nat.add_assoc]
  exact this

theorem tallest (left : Nat) (line : List TextSpan) (a : Nat) :
    line.foldl (fun h s => max h s.characterHeight) a = (line.map (placed left)).foldl (fun h p => max h p.2.2.cell.2) a := by
  rw [List.foldl_map]; rfl

theorem LaySim.down {left width : Nat} {text : TextContext} {l l' : Layout} {c : Carriage} (h : LaySim left width text l c) (hf : l.finishLine = .ok l') :
    LaySim left width text l' (c.down text.lineSpacing.toNat) := by
  simp only [Layout.finishLine, Context.newlineForSpans, bind_ok, offsetY_ok, pure_ok] at hf
  obtain ⟨k, ⟨_, rfl⟩, rfl⟩ := hf
  refine ⟨?_, ?_, ?_, ?_, ?_, rfl, ?_, ?_, ?_⟩
  · rw [← h.base]; dsimp only; rw [baseX_putY]; exact baseX_putX _ _
  · rw [← h.width]; dsimp only; rw [getWidth_putY]; exact getWidth_putX _ _
  · rw [← h.text]; dsimp only; rw [text_putY]; exact text_putX _ _
  · dsimp only; rw [getX_putY]; unfold Context.resetX; rw [getX_putX, h.base]; rfl
  · dsimp only; rw [getY_putY]; unfold Context.resetX; rw [getY_putX, h.y, h.text, tallest left, h.line]; rfl
  · intro s hs; simp at hs
  · dsimp only [Carriage.down]
    rw [List.filter_append, List.filter_append, List.map_append, h.done]
    congr 1
    by_cases he : l.currentLine = []
    · rw [he]
      have : c.line = [] := by rw [← h.line, he]; rfl
      rw [this]; rfl
    · have : c.line ≠ [] := by rw [← h.line]; simpa using he
      simp only [List.filter_cons, List.filter_nil, decide_eq_true he, decide_eq_true this, if_true, List.map_cons, List.map_nil,
        h.tops.top he, h.line]
  · intro line hl
    rcases List.mem_append.1 hl with hl | hl
    · exact h.doneTops line hl
    · simp only [List.mem_singleton] at hl; subst hl
      intro t ht
      rw [h.tops.top (List.ne_nil_of_mem ht)]
      exact h.tops t ht

/-- The pieces of a long word: the first at the pen, the others on lines of their own. -/
theorem layoutBroken_sim {left width : Nat} {text : TextContext} {bs : List TextSpan} {b : TextSpan} {l l' : Layout} {c : Carriage}
    (h : layoutBroken (b :: bs) l = .ok l') (hs : LaySim left width text l c) :
    LaySim left width text l' ((bs.map runOf).foldl (fun c r => (c.down text.lineSpacing.toNat).put r) (c.put (runOf b))) := by
  induction bs generalizing b l c with
  | nil =>
    simp only [layoutBroken, bind_ok, pure_ok] at h
    obtain ⟨b', h2, w, h3, k, h4, rfl⟩ := h
    obtain ⟨rfl, h5⟩ := getDimensions_ok h2
    simp only [TextSpan.getWidth, mulU32_ok] at h3
    obtain ⟨h3, rfl⟩ := h3
    have := hs.put (t := b) h4
    exact this
  | cons b2 bs ih =>
    simp only [layoutBroken, bind_ok] at h
    obtain ⟨b', h2, l1, h3, h4⟩ := h
    obtain ⟨rfl, h5⟩ := getDimensions_ok h2
    have h6 := ih h4 ((hs.add b).down h3)
    rw [List.map_cons, List.foldl_cons]
    exact h6

theorem down_x (n x : Nat) (c : Carriage) : ({ c with x := x } : Carriage).down n = c.down n := rfl

/-- One word. -/
theorem layoutWord_sim {left width : Nat} {text : TextContext} {l l' : Layout} {w : TextSpan} {c : Carriage} (h : layoutWord width l w = .ok l')
    (hs : LaySim left width text l c) (hpos : 0 < w.text.length * w.characterWidth)
    (hcut : w.characterWidth * w.characterWidth ≤ width ∨ w.text.length * w.characterWidth ≤ width) (htab : left = 0 ∨ w.text ≠ ['\t']) :
    LaySim left width text l' (c.word width text.lineSpacing.toNat (text.tabs.map (·.toNat)) (runOf w)) := by
  have hav : l.context.availableWidth = width - c.x := by
    rw [available_eq, hs.width, hs.x, hs.base, Nat.add_sub_cancel_left]
  simp only [Thermal.layoutWord, bind_ok] at h
  obtain ⟨ww, hw, h⟩ := h
  simp only [TextSpan.getWidth, mulU32_ok, TextSpan.characterCount] at hw
  obtain ⟨hw, rfl⟩ := hw
  unfold Carriage.word
  rw [runOf_width]
  split at h
  · next ht =>
    rw [if_pos (show (runOf w).1 = _ from ht)]
    simp only [bind_ok, pure_ok] at h
    obtain ⟨l1, h1, rfl⟩ := h
    have h2 := hs.down h1
    refine ⟨h2.base, h2.width, h2.text, h2.x, h2.y, h2.line, h2.tops, ?_, ?_⟩
    · rw [← h2.done]; dsimp only; rw [List.filter_append]; simp
    · intro line hl
      rcases List.mem_append.1 hl with hl | hl
      · exact h2.doneTops line hl
      · simp only [List.mem_singleton] at hl; subst hl; intro t ht; simp at ht
  next ht0 =>
  rw [if_neg (show ¬ (runOf w).1 = _ from ht0)]
  split at h
  · next ht =>
    rw [if_pos (show (runOf w).1 = _ from ht)]
    simp only [bind_ok] at h
    obtain ⟨o, ho, h⟩ := h
    have hf := tabStop_find ho
    have hz : left = 0 := htab.resolve_right (fun h => h ht)
    subst hz
    rw [hs.x, hs.text, Nat.zero_add] at hf
    have he : stops (text.tabs.map (·.toNat)) (runOf w).2.cell.1 =
        (List.range text.tabs.length).map fun i => 0 + ((text.tabs.map (·.toNat)).take i).sum * w.characterWidth := by
      unfold stops
      rw [List.length_map]
      simp only [Nat.zero_add]
      rfl
    rw [he, ← hf]
    split at h
    · next q =>
      simp only [bind_ok, pure_ok] at h
      obtain ⟨k, h1, rfl⟩ := h
      have h1 := setX_ok h1
      rw [hs.base] at h1
      subst h1
      exact hs.moveX q
    · rw [pure_ok] at h; subst h; exact hs
  next ht1 =>
  rw [if_neg (show ¬ (runOf w).1 = _ from ht1)]
  rw [hav] at h
  split at h
  · next hle =>
    rw [if_pos (by omega)]
    simp only [bind_ok, pure_ok] at h
    obtain ⟨w', h2, k, h1, rfl⟩ := h
    obtain ⟨rfl, _⟩ := getDimensions_ok h2
    exact hs.put h1
  next hle =>
  rw [if_neg (by omega)]
  split at h
  · next hgt =>
    rw [if_neg (by omega)]
    simp only [bind_ok, divU_ok] at h
    obtain ⟨f, ⟨hcw, rfl⟩, k, ⟨_, rfl⟩, bs, hb, h⟩ := h
    have h24 : w.characterWidth * w.characterWidth ≤ width := by rcases hcut with h | h <;> omega
    have hpos' : 0 < w.characterWidth := Nat.pos_of_ne_zero hcw
    have hmax : max (width / w.characterWidth) w.characterWidth = width / w.characterWidth := by
      apply Nat.max_eq_left
      rw [Nat.le_div_iff_mul_le hpos']
      exact h24
    have hlen : 0 < width / w.characterWidth := Nat.div_pos (Nat.le_trans (Nat.le_mul_of_pos_left _ hpos') h24) hpos'
    rw [hmax] at hb
    have hroom : (width - c.x) / w.characterWidth < w.text.length := by
      rw [Nat.div_lt_iff_lt_mul hpos']; omega
    have key : bs = w.cloneWith (w.text.take ((width - c.x) / w.characterWidth)) ::
        (pieces (width / w.characterWidth) (w.text.drop ((width - c.x) / w.characterWidth))).map w.cloneWith := by
      unfold TextSpan.breakApart at hb
      rw [if_neg (by omega)] at hb
      split at hb
      · rw [ok_ok, chunksAux_pieces hlen (by rw [List.length_drop]; omega)] at hb
        exact hb.symm
      · next hz =>
        have h0 : (width - c.x) / w.characterWidth = 0 := by
          rcases Nat.eq_zero_or_pos ((width - c.x) / w.characterWidth) with h | h
          · exact h
          · exact absurd ⟨h, by omega⟩ hz
        rw [ok_ok, chunksAux_pieces hlen (Nat.le_refl _)] at hb
        rw [h0]
        simpa using hb.symm
    subst key
    have := layoutBroken_sim h hs
    rw [List.map_map] at this
    dsimp only
    have e1 : (runOf w).2.cell.1 = w.characterWidth := rfl
    have e2 : (runOf w).1 = w.text := rfl
    rw [e1, e2]
    rw [show (runOf ∘ w.cloneWith : Str → Run) = fun s => (s, (runOf w).2) from rfl, List.foldl_map] at this
    exact this
  · next hgt =>
    rw [if_pos (by omega)]
    simp only [bind_ok, pure_ok] at h
    obtain ⟨l1, h1, w', h2, k, h3, rfl⟩ := h
    obtain ⟨rfl, _⟩ := getDimensions_ok h2
    exact (hs.down h1).put h3

theorem layoutWords_sim {left width : Nat} {text : TextContext} {ws : List TextSpan} {l l' : Layout} {c : Carriage}
    (h : layoutWords width ws l = .ok l') (hs : LaySim left width text l c)
    (hw : ∀ w ∈ ws, 0 < w.text.length * w.characterWidth ∧
      (w.characterWidth * w.characterWidth ≤ width ∨ w.text.length * w.characterWidth ≤ width) ∧ (left = 0 ∨ w.text ≠ ['\t'])) :
    LaySim left width text l' ((ws.map runOf).foldl (Carriage.word width text.lineSpacing.toNat (text.tabs.map (·.toNat))) c) := by
  induction ws generalizing l c with
  | nil => simp only [layoutWords, ok_ok] at h; subst h; exact hs
  | cons w ws ih =>
    simp only [layoutWords, bind_ok] at h
    obtain ⟨l1, h1, h2⟩ := h
    rw [List.map_cons, List.foldl_cons]
    exact ih h2 (layoutWord_sim h1 hs (hw w (by simp)).1 (hw w (by simp)).2.1 (hw w (by simp)).2.2) (fun w hw' => hw w (by simp [hw']))

/-! ### The lines -/

theorem lineWidth_sum {left : Nat} {line : List TextSpan} {a w : Nat} (h : lineWidth line a = .ok w) :
    w = a + ((line.map (placed left)).map fun p => p.2.width).sum := by
  induction line generalizing a with
  | nil => simp only [lineWidth, ok_ok] at h; subst h; simp
  | cons t ts ih =>
    simp only [lineWidth, bind_ok, TextSpan.getWidth, mulU32_ok, addU32_ok, TextSpan.characterCount] at h
    obtain ⟨_, ⟨_, rfl⟩, _, ⟨_, rfl⟩, h⟩ := h
    rw [ih h]
    simp only [List.map_cons, List.sum_cons]
    have : (placed left t).2.width = t.text.length * t.characterWidth := rfl
    rw [this]; omega

theorem lineOffset_indent {j : TextJustify} {width w off : Nat} (h : lineOffset j width w = .ok off) : off = indent j width w := by
  unfold lineOffset at h
  unfold indent
  cases j
  · dsimp only at h ⊢; rw [ok_ok] at h; exact h.symm
  · dsimp only at h ⊢; rw [ok_ok] at h; subst h; split <;> omega
  · dsimp only at h ⊢; rw [subU_ok] at h; omega

theorem spans_pieces {left : Nat} {line : List TextSpan} {y off : Nat} (h : AllAt left line y) :
    line.filterMap (spanPiece off) = (line.map (placed left)).map fun p => ⟨⟨left + off + p.1, y, p.2.width, p.2.2.cell.2⟩, p.2.1, p.2.2⟩ := by
  induction line with
  | nil => rfl
  | cons t ts ih =>
    obtain ⟨x, h1⟩ := h t (by simp)
    have e : spanPiece off t = some ⟨⟨off + (left + x), y, t.text.length * t.characterWidth, t.characterHeight⟩, t.text, lookOf t⟩ := by
      simp only [spanPiece, h1, Option.map_some]
    rw [List.filterMap_cons_some e, ih (fun s hs => h s (by simp [hs])), List.map_cons, List.map_cons]
    congr 1
    simp only [placed, runOf, h1, Option.elim_some, Nat.add_sub_cancel_left]
    rw [show off + (left + x) = left + off + x by omega]
    rfl

/-- What a list of recorded calls puts on the paper. -/
def allLines (calls : List (Context × Call)) : List TextLine := calls.flatMap fun x => callLines x.2

theorem renderLines_lines {left width : Nat} {ls : List (List TextSpan)} {r r' : Recording} (h : renderLines recorder ls r = .ok r')
    (hw : r.context.getWidth = width) (ht : ∀ line ∈ ls, AllAt left line (topOf line)) :
    allLines r'.child = allLines r.child ++
      ((ls.filter (· ≠ [])).map (fun line => (topOf line, line.map (placed left)))).flatMap (fun l => setLine left width l.1 l.2) ∧
    r'.context = r.context ∧ r'.spanBuffer = r.spanBuffer := by
  induction ls generalizing r with
  | nil => simp only [renderLines, ok_ok] at h; subst h; simp
  | cons l ls ih =>
    simp only [renderLines, bind_ok] at h
    obtain ⟨r1, h1, h2⟩ := h
    cases l with
    | nil =>
      simp only [renderLine, ok_ok] at h1; subst h1
      simpa using ih h2 hw (fun x hx => ht x (by simp [hx]))
    | cons f l =>
      simp only [renderLine, bind_ok, pure_ok, recorder, ok_ok] at h1
      obtain ⟨w, hwi, off, ho, s, rfl, rfl⟩ := h1
      obtain ⟨a, b, c⟩ := ih h2 hw (fun x hx => ht x (by simp [hx]))
      refine ⟨?_, b, c⟩
      rw [a]
      simp only [List.filter_cons, ne_eq, reduceCtorEq, not_false_eq_true, decide_true, if_true, List.map_cons, List.flatMap_cons]
      have e : allLines (r.child ++ [(r.context, Call.text (f :: l) off (lineHeight (f :: l)) f.justify)]) =
          allLines r.child ++ [⟨lineHeight (f :: l), (f :: l).filterMap (spanPiece off)⟩] := by
        unfold allLines; rw [List.flatMap_append]; simp [callLines]
      rw [e, List.append_assoc]
      congr 1
      have h3 := lineWidth_sum (left := left) hwi
      rw [Nat.zero_add] at h3
      rw [hw] at ho
      have h4 := lineOffset_indent ho
      rw [spans_pieces (ht (f :: l) (by simp)), h4, h3, lineHeight, tallest left]
      rfl

theorem lines_filter (left width : Nat) (ls : List (Nat × List (Nat × Run))) :
    (ls.filter (·.2 ≠ [])).flatMap (fun l => setLine left width l.1 l.2) = ls.flatMap (fun l => setLine left width l.1 l.2) := by
  induction ls with
  | nil => rfl
  | cons l ls ih =>
    rw [List.filter_cons]
    split
    · rw [List.flatMap_cons, List.flatMap_cons, ih]
    · next h =>
      have : l.2 = [] := by simpa using h
      rw [ih, List.flatMap_cons, this]; rfl

/-- The words of a span that is to be set. -/
def Settable (left width : Nat) (t : TextSpan) : Prop := 0 < t.characterWidth ∧ (runOf t).sets left width

theorem words_runs (ts : List TextSpan) : (ts.flatMap TextSpan.breakIntoWords).map runOf =
    (ts.map runOf).flatMap fun r => (Spec.words r.1).map fun w => (w, r.2) := by
  rw [List.map_flatMap, List.flatMap_map]
  congr 1; funext t
  unfold TextSpan.breakIntoWords
  rw [wordsLoop_eq, List.map_map]; rfl

/-- Setting what is collected. -/
theorem processText_typeset {r r' : Recording} {left width x : Nat} (h : processText recorder r = .ok r') (hb : r.context.baseX = left)
    (hw : r.context.getWidth = width) (hx : r.context.getX = left + x) (ht : ∀ t ∈ r.spanBuffer, Settable left width t) :
    let c := typeset width r.context.text.lineSpacing.toNat (r.context.text.tabs.map (·.toNat)) x r.context.getY
      (r.spanBuffer.map runOf)
    allLines r'.child = allLines r.child ++ c.lines left width ∧ r'.context.getX = left + c.x ∧ r'.context.getY = c.y ∧ r'.spanBuffer = [] ∧
      PenDown r.context r'.context := by
  dsimp only
  have hp := (processText_quiet h).4
  by_cases hne : r.spanBuffer = []
  · unfold processText at h
    rw [if_pos hne, ok_ok] at h; subst h
    rw [hne]
    simp [hx, typeset, Carriage.lines, setLine, PenDown.refl, hne]
  unfold processText at h
  rw [if_neg hne] at h
  simp only [bind_ok, layoutText, pure_ok] at h
  obtain ⟨_, ⟨l, h1, rfl⟩, h⟩ := h
  rw [hw] at h1
  have hsim : LaySim left width r.context.text ⟨r.context, [], []⟩ ⟨x, r.context.getY, [], []⟩ :=
    ⟨hb, hw, rfl, hx, rfl, rfl, by intro t ht; simp at ht, rfl, by intro t ht; simp at ht⟩
  have hsim2 := layoutWords_sim h1 hsim (by
    intro w hw'
    obtain ⟨t, ht1, ht2⟩ := List.mem_flatMap.1 hw'
    obtain ⟨a, b⟩ := ht t ht1
    unfold TextSpan.breakIntoWords at ht2
    rw [wordsLoop_eq] at ht2
    obtain ⟨x, hx, rfl⟩ := List.mem_map.1 ht2
    refine ⟨Nat.mul_pos (List.length_pos_iff.2 (words_ne _ x hx)) a, b.1 x hx, b.2.imp_right fun h1 h2 => h1 ?_⟩
    refine words_mem _ x hx _ ?_
    have : x = ['\t'] := h2
    rw [this]; simp)
  rw [words_runs] at hsim2
  have htyp : ∀ width sp tabs x y rs, (List.flatMap (fun r : Run => (Spec.words r.1).map fun w => ((w, r.2) : Run)) rs).foldl
      (Carriage.word width sp tabs) ⟨x, y, [], []⟩ = typeset width sp tabs x y rs := fun _ _ _ _ _ _ => rfl
  rw [htyp] at hsim2
  generalize typeset _ _ _ _ _ _ = c at hsim2 ⊢
  have htops : ∀ line ∈ (if l.currentLine = [] then l.lines else l.lines ++ [l.currentLine]), AllAt left line (topOf line) := by
    intro line hl
    have : line ∈ l.lines ∨ (line = l.currentLine ∧ l.currentLine ≠ []) := by
      split at hl
      · exact .inl hl
      · next hc =>
        rcases List.mem_append.1 hl with h | h
        · exact .inl h
        · exact .inr ⟨by simpa using h, hc⟩
    rcases this with h | ⟨rfl, h⟩
    · exact hsim2.doneTops line h
    · rw [hsim2.tops.top h]; exact hsim2.tops
  obtain ⟨a1, a2, a3⟩ := renderLines_lines h hsim2.width htops
  dsimp only at a1 a2 a3
  refine ⟨?_, by rw [a2]; exact hsim2.x, by rw [a2]; exact hsim2.y, a3, hp⟩
  rw [a1]
  congr 1
  unfold Carriage.lines
  rw [← lines_filter left width c.done, ← hsim2.done]
  by_cases hc : l.currentLine = []
  · rw [if_pos hc]
    have : c.line = [] := by rw [← hsim2.line, hc]; rfl
    rw [this]; simp [setLine]
  · rw [if_neg hc, List.filter_append, List.map_append, List.flatMap_append]
    congr 1
    simp only [List.filter_cons, List.filter_nil, ne_eq, hc, not_false_eq_true, decide_true, if_true, List.map_cons, List.map_nil,
      List.flatMap_cons, List.flatMap_nil, List.append_nil, hsim2.tops.top hc, hsim2.line]

end Thermal
