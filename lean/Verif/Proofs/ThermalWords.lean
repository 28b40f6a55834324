import Verif.Proofs.ThermalFile
/-
Reading a line of words.
-/
namespace Thermal
open Spec
set_option linter.unusedSimpArgs false

/-! ### Unescaping -/

theorem replace2_ne {x y : Char} {to : Str} {a : Char} (s : Str) (h : a ≠ x) :
    Str.replace2 x y to (a :: s) = a :: Str.replace2 x y to s := by
  rcases s with _ | ⟨b, s⟩
  · rfl
  · rw [Str.replace2, if_neg (fun e => h e.1)]

theorem replace2_ne2 {x y : Char} {to : Str} {a b : Char} (s : Str) (h : b ≠ y) :
    Str.replace2 x y to (a :: b :: s) = a :: Str.replace2 x y to (b :: s) := by
  rw [Str.replace2, if_neg (fun e => h e.2)]

/-- what is left of an escaped character after the first replacement -/
def halfChar (c : Char) : Str := if c = '"' then ['\\', '"'] else [c]

theorem replace_first (t : Str) :
    Str.replace2 '\\' '\\' ['\\'] (t.flatMap escapeChar) = t.flatMap halfChar := by
  induction t with
  | nil => rfl
  | cons c t ih =>
    rw [List.flatMap_cons, List.flatMap_cons, ← ih]
    unfold escapeChar halfChar
    by_cases h1 : c = '\\'
    · subst h1; simp [Str.replace2]
    · by_cases h2 : c = '"'
      · subst h2
        simp only [h1, if_false, if_true, List.cons_append, List.nil_append]
        rw [replace2_ne2 _ (by decide), replace2_ne _ (by decide)]
      · simp only [h1, h2, if_false, List.cons_append, List.nil_append]
        rw [replace2_ne _ h1]

theorem halfChars_head (t : Str) : ∀ b s, t.flatMap halfChar = b :: s → b ≠ '"' := by
  intro b s h
  rcases t with _ | ⟨c, t⟩
  · simp at h
  · rw [List.flatMap_cons] at h
    unfold halfChar at h
    by_cases h2 : c = '"'
    · simp [h2] at h; rw [← h.1]; decide
    · simp [h2] at h; rw [← h.1]; exact h2

theorem replace_second (t : Str) :
    Str.replace2 '\\' '"' ['"'] (t.flatMap halfChar) = t := by
  induction t with
  | nil => rfl
  | cons c t ih =>
    rw [List.flatMap_cons]
    by_cases h2 : c = '"'
    · subst h2
      simp only [halfChar, if_true, List.cons_append, List.nil_append]
      rw [Str.replace2, if_pos ⟨rfl, rfl⟩]
      simp only [List.cons_append, List.nil_append]
      rw [ih]
    · have hc : halfChar c = [c] := by simp [halfChar, h2]
      rw [hc, List.singleton_append]
      by_cases h1 : c = '\\'
      · rcases hr : t.flatMap halfChar with _ | ⟨b, s⟩
        · rw [hr] at ih; rw [← ih]; rfl
        · rw [replace2_ne2 _ (halfChars_head t b s hr), ← hr, ih]
      · rw [replace2_ne _ h1, ih]

/-! ### Tokens -/

/-- the token a word becomes -/
def wordTok : Word → Str
  | .quoted t => '"' :: t.flatMap escapeChar
  | w => w.src

/-- may not appear in a word outside quotes -/
def plainChar (c : Char) : Bool := c != '"' && !isAsciiWhitespace c && !isWhitespace c && c != '\'' && c != '\r' && c != '\n'

theorem dec_plain (b : Byte) : (Word.dec b).src.all plainChar = true ∧ (Word.dec b).src ≠ [] ∧
    tokenBytes (Word.dec b).src = .ok [b] := by
  revert b; apply byte_all; decide +kernel

theorem hex_plain (b : Byte) (u1 u2 : Bool) : (Word.hex b u1 u2).src.all plainChar = true ∧ (Word.hex b u1 u2).src ≠ [] ∧
    tokenBytes (Word.hex b u1 u2).src = .ok [b] := by
  cases u1 <;> cases u2 <;> revert b <;> apply byte_all <;> decide +kernel

theorem const_plain (i : Fin 10) : (Word.const i).src.all plainChar = true ∧ (Word.const i).src ≠ [] ∧
    tokenBytes (Word.const i).src = .ok (Word.const i).bytes := by
  revert i; decide +kernel

theorem quoted_tok (t : Str) : tokenBytes (wordTok (.quoted t)) = .ok t.bytes := by
  have hne : ∀ n : String, n.toList.head? ≠ some '"' → wordTok (.quoted t) ≠ n.toList := by
    intro n hn he
    rw [← he] at hn
    exact hn rfl
  unfold tokenBytes
  iterate 10 rw [if_neg (hne _ (by decide))]
  have hh : Str.startsWith (wordTok (.quoted t)) hexPrefix = false := by simp [wordTok, Str.startsWith, hexPrefix, List.isPrefixOf]
  have hq : Str.startsWith (wordTok (.quoted t)) ['"'] = true := by simp [wordTok, Str.startsWith, List.isPrefixOf]
  rw [if_neg (by simp [hh]), if_pos hq]
  have e1 : Str.replace2 '\\' '\\' ['\\'] (wordTok (.quoted t)) = '"' :: t.flatMap halfChar := by
    rw [wordTok, replace2_ne _ (by decide), replace_first]
  have e2 : Str.replace2 '\\' '"' ['"'] ('"' :: t.flatMap halfChar) = '"' :: t := by
    rw [replace2_ne _ (by decide), replace_second]
  rw [e1, e2]
  have : Str.sliceFrom ('"' :: t) 1 = .ok t := sliceFrom_mid ['"'] t
  simp [this, bind, Except.bind]

theorem wordTok_bytes (w : Word) : tokenBytes (wordTok w) = .ok w.bytes := by
  cases w with
  | quoted t => exact quoted_tok t
  | dec b => exact (dec_plain b).2.2
  | hex b u1 u2 => exact (hex_plain b u1 u2).2.2
  | const i => exact (const_plain i).2.2

theorem tokAbs_quoted (t rest : Str) : ∀ cur, tokAbs (t.flatMap escapeChar ++ '"' :: rest) cur true false =
    (cur ++ t.flatMap escapeChar) :: tokAbs rest [] false false := by
  induction t with
  | nil => intro cur; simp [tokAbs]
  | cons c t ih =>
    intro cur
    rw [List.flatMap_cons, List.append_assoc]
    unfold escapeChar
    by_cases h1 : c = '\\'
    · subst h1
      simp only [if_true, List.cons_append, List.nil_append]
      rw [tokAbs, if_neg (by decide), if_neg (by decide), if_pos rfl, tokAbs, if_pos ⟨rfl, rfl⟩]
      rw [show t.flatMap (fun c => if c = '\\' then ['\\', '\\'] else if c = '"' then ['\\', '"'] else [c]) =
        t.flatMap escapeChar from rfl, ih]
      simp
    · by_cases h2 : c = '"'
      · subst h2
        simp only [h1, if_true, if_false, List.cons_append, List.nil_append]
        rw [tokAbs, if_neg (by decide), if_neg (by decide), if_pos rfl, tokAbs, if_neg (by decide), if_pos ⟨rfl, rfl⟩]
        rw [show t.flatMap (fun c => if c = '\\' then ['\\', '\\'] else if c = '"' then ['\\', '"'] else [c]) =
          t.flatMap escapeChar from rfl, ih]
        simp
      · simp only [h1, h2, if_false, List.cons_append, List.nil_append]
        rw [tokAbs, if_neg (by simp), if_neg (by simp), if_neg h1, if_neg h2]
        rw [show t.flatMap (fun c => if c = '\\' then ['\\', '\\'] else if c = '"' then ['\\', '"'] else [c]) =
          t.flatMap escapeChar from rfl, ih]
        simp

theorem tokAbs_plain (s rest : Str) (h : s.all plainChar = true) : ∀ cur,
    tokAbs (s ++ rest) cur false false = tokAbs rest (cur ++ s) false false := by
  induction s with
  | nil => intro cur; simp
  | cons c s ih =>
    intro cur
    simp only [List.all_cons, Bool.and_eq_true] at h
    have hc := h.1
    simp only [plainChar, Bool.and_eq_true, Bool.not_eq_true', bne_iff_ne, ne_eq] at hc
    rw [List.cons_append, tokAbs, if_neg hc.1.1.1.1.1, if_neg (by simp [hc.1.1.1.1.2]), ih h.2]
    simp

theorem blank_white {c : Char} (h : blank c) : isAsciiWhitespace c = true ∧ c ≠ '"' ∧ c ≠ '\'' ∧ c ≠ '\n' := by
  rcases h with h | h | h | h <;> subst h <;> decide

theorem tokAbs_blanks (s rest : Str) (h : Blanks s) : tokAbs (s ++ rest) [] false false = tokAbs rest [] false false := by
  induction s with
  | nil => rfl
  | cons c s ih =>
    have hc := blank_white (h c (by simp))
    rw [List.cons_append, tokAbs, if_neg hc.2.1, if_pos hc.1]
    simp [ih (fun d hd => h d (by simp [hd]))]

/-- what follows a word: nothing, or a blank -/
def EndsWord (rest : Str) : Prop := rest = [] ∨ ∃ c r, rest = c :: r ∧ blank c

theorem tokAbs_plainWord (s rest : Str) (h : s.all plainChar = true) (hn : s ≠ []) (hr : EndsWord rest) :
    tokAbs (s ++ rest) [] false false = s :: tokAbs rest [] false false := by
  rw [tokAbs_plain s rest h]
  rcases hr with rfl | ⟨c, r, rfl, hc⟩
  · simp [tokAbs, hn]
  · have := blank_white hc
    rw [List.nil_append, tokAbs, if_neg this.2.1, if_pos this.1, if_neg hn]
    conv => rhs; rw [tokAbs, if_neg this.2.1, if_pos this.1]
    simp

theorem tokAbs_word (w : Word) (rest : Str) (hr : EndsWord rest) :
    tokAbs (w.src ++ rest) [] false false = wordTok w :: tokAbs rest [] false false := by
  cases w with
  | quoted t =>
    simp only [Word.src, quote, List.append_assoc, List.cons_append, List.nil_append]
    rw [tokAbs, if_pos rfl, tokAbs_quoted]; rfl
  | dec b => exact tokAbs_plainWord _ _ (dec_plain b).1 (dec_plain b).2.1 hr
  | hex b u1 u2 => exact tokAbs_plainWord _ _ (hex_plain b u1 u2).1 (hex_plain b u1 u2).2.1 hr
  | const i => exact tokAbs_plainWord _ _ (const_plain i).1 (const_plain i).2.1 hr

theorem line_ends {sep s : Str} (h : Blanks sep) (hn : sep ≠ []) : EndsWord (sep ++ s) := by
  rcases sep with _ | ⟨c, r⟩
  · exact absurd rfl hn
  · exact Or.inr ⟨c, r ++ s, rfl, h c (by simp)⟩

theorem tokAbs_line {s : Str} {ws : List Word} (h : Line s ws) : tokAbs s [] false false = ws.map wordTok := by
  induction h with
  | empty hb => have := tokAbs_blanks _ [] hb; simpa [tokAbs] using this
  | @last lead trail w h1 h2 h3 =>
    rw [List.append_assoc, tokAbs_blanks _ _ h1, tokAbs_word]
    · have := tokAbs_blanks _ [] h2; simp [tokAbs] at this; simp [this]
    · by_cases ht : trail = []
      · exact Or.inl ht
      · simpa using line_ends (s := []) h2 ht
  | @more lead sep w s ws h1 h2 h3 h4 _ ih =>
    rw [List.append_assoc, List.append_assoc, tokAbs_blanks _ _ h1, tokAbs_word _ _ (line_ends h2 h3),
      tokAbs_blanks _ _ h2, ih]; rfl

theorem tokensBytes_words (ws : List Word) : tokensBytes (ws.map wordTok) = .ok (ws.flatMap Word.bytes) := by
  induction ws with
  | nil => rfl
  | cons w ws ih => simp [tokensBytes, wordTok_bytes, ih, bind, Except.bind]

/-! ### Lines -/

theorem word_head (w : Word) : ∃ c r, w.src = c :: r ∧ isWhitespace c = false ∧ c ≠ '\'' := by
  have go : ∀ s : Str, s.all plainChar = true → s ≠ [] → ∃ c r, s = c :: r ∧ isWhitespace c = false ∧ c ≠ '\'' := by
    intro s h hn
    rcases s with _ | ⟨c, r⟩
    · exact absurd rfl hn
    · simp only [List.all_cons, Bool.and_eq_true, plainChar, Bool.not_eq_true', bne_iff_ne, ne_eq] at h
      exact ⟨c, r, rfl, h.1.1.1.1.2, h.1.1.1.2⟩
  cases w with
  | quoted t => exact ⟨'"', _, rfl, by decide, by decide⟩
  | dec b => exact go _ (dec_plain b).1 (dec_plain b).2.1
  | hex b u1 u2 => exact go _ (hex_plain b u1 u2).1 (hex_plain b u1 u2).2.1
  | const i => exact go _ (const_plain i).1 (const_plain i).2.1

theorem not_comment {c : Char} {r : Str} (h : c ≠ '\'') : Str.startsWith (c :: r) commentPrefix = false := by
  simp [Str.startsWith, commentPrefix, List.isPrefixOf, Ne.symm h]

theorem lead_not_comment {lead r : Str} {w : Word} (h : Blanks lead) :
    Str.startsWith (lead ++ w.src ++ r) commentPrefix = false := by
  rcases lead with _ | ⟨c, l⟩
  · obtain ⟨c, r', h1, _, h2⟩ := word_head w
    rw [h1]; exact not_comment h2
  · exact not_comment (blank_white (h c (by simp))).2.2.1

theorem word_not_blank {lead r : Str} {w : Word} : Str.isBlank (lead ++ w.src ++ r) = false := by
  obtain ⟨c, r', h1, h2, _⟩ := word_head w
  simp [h1, Str.isBlank, h2]

theorem lineBytes_line {s : Str} {ws : List Word} (h : Line s ws) : lineBytes s = .ok (ws.flatMap Word.bytes) := by
  unfold lineBytes
  rw [parseTokens_eq, tokAbs_line h]
  simp only [bind, Except.bind, tokensBytes_words]
  cases h with
  | empty => split <;> rfl
  | @last lead trail w h1 h2 h3 => rw [lead_not_comment h1, word_not_blank]; rfl
  | @more lead sep w s ws h1 h2 h3 h4 _ =>
    rw [List.append_assoc _ sep s, lead_not_comment h1, word_not_blank]; rfl

theorem lineBytes_comment {s : Str} (h : Str.startsWith s commentPrefix = true) : lineBytes s = .ok [] := by
  unfold lineBytes; simp [h]

theorem word_noNewline (w : Word) (h : w.oneLine) : '\n' ∉ w.src := by
  have go : ∀ s : Str, s.all plainChar = true → '\n' ∉ s := by
    intro s h hm
    have := List.all_eq_true.1 h _ hm
    simp [plainChar] at this
  cases w with
  | quoted t =>
    simp only [Word.oneLine] at h
    simp only [Word.src, quote, List.mem_append, List.mem_singleton, List.mem_flatMap]
    rintro ((hh | ⟨c, hc, hh⟩) | hh)
    · simp at hh
    · unfold escapeChar at hh
      split at hh
      · simp at hh
      · split at hh
        · simp at hh
        · simp at hh; exact h (hh ▸ hc)
    · simp at hh
  | dec b => exact go _ (dec_plain b).1
  | hex b u1 u2 => exact go _ (hex_plain b u1 u2).1
  | const i => exact go _ (const_plain i).1

theorem blanks_noNewline {s : Str} (h : Blanks s) : '\n' ∉ s := fun hm => (blank_white (h _ hm)).2.2.2 rfl

theorem line_noNewline {s : Str} {ws : List Word} (h : Line s ws) : '\n' ∉ s := by
  induction h with
  | empty h => exact blanks_noNewline h
  | last h1 h2 h3 => simp [blanks_noNewline h1, blanks_noNewline h2, word_noNewline _ h3]
  | more h1 h2 h3 h4 _ ih => simp [blanks_noNewline h1, blanks_noNewline h2, word_noNewline _ h4, ih]

theorem word_last (w : Word) : w.src.getLast? ≠ some '\r' := by
  have go : ∀ s : Str, s.all plainChar = true → s.getLast? ≠ some '\r' := by
    intro s h hm
    have := List.all_eq_true.1 h _ (List.mem_of_getLast? hm)
    simp [plainChar] at this
  cases w with
  | quoted t => simp only [Word.src, quote]; rw [List.getLast?_append]; simp
  | dec b => exact go _ (dec_plain b).1
  | hex b u1 u2 => exact go _ (hex_plain b u1 u2).1
  | const i => exact go _ (const_plain i).1

theorem stripCr_append {a b : Str} (h : b ≠ []) : stripCr (a ++ b) = a ++ stripCr b := by
  unfold stripCr
  have : (a ++ b).getLast? = b.getLast? := by
    rw [List.getLast?_append]; simp [List.getLast?_eq_some_getLast h]
  rw [this]
  split
  · rw [List.dropLast_append_of_ne_nil h]
  · rfl

theorem blanks_strip {s : Str} (h : Blanks s) : Blanks (stripCr s) := by
  unfold stripCr
  split
  · exact fun c hc => h c (List.dropLast_subset _ hc)
  · exact h

theorem line_last {lead trail : Str} {w : Word} (h1 : Blanks lead) (h2 : Blanks trail) (h3 : w.oneLine) :
    Line (stripCr (lead ++ w.src ++ trail)) [w] := by
  by_cases ht : trail = []
  · subst ht
    have : stripCr (lead ++ w.src ++ []) = lead ++ w.src ++ [] := by
      have hne : w.src ≠ [] := by obtain ⟨c, r, h, _⟩ := word_head w; simp [h]
      rw [List.append_nil, stripCr_append hne]
      unfold stripCr; rw [if_neg (word_last w)]
    rw [this]; exact Line.last h1 h2 h3
  · rw [stripCr_append ht]; exact Line.last h1 (blanks_strip h2) h3

theorem line_strip {s : Str} {ws : List Word} (h : Line s ws) : Line (stripCr s) ws := by
  induction h with
  | empty h => exact Line.empty (blanks_strip h)
  | last h1 h2 h3 => exact line_last h1 h2 h3
  | @more lead sep w s ws h1 h2 h3 h4 hl ih =>
    by_cases hs : s = []
    · subst hs
      have hw : ws = [] := by
        generalize he : ([] : Str) = s at hl
        cases hl with
        | empty => rfl
        | @last l t w => obtain ⟨c, r, h, _⟩ := word_head w; simp [h] at he
        | @more l t w => obtain ⟨c, r, h, _⟩ := word_head w; simp [h] at he
      subst hw
      rw [List.append_nil]; exact line_last h1 h2 h4
    · rw [stripCr_append hs]; exact Line.more h1 h2 h3 h4 ih

theorem linesAux_line (l rest : Str) (h : '\n' ∉ l) : ∀ acc,
    Str.linesAux (l ++ '\n' :: rest) acc = stripCr (acc ++ l) :: Str.linesAux rest [] := by
  induction l with
  | nil => intro acc; simp [Str.linesAux]
  | cons c l ih =>
    intro acc
    simp only [List.mem_cons, not_or] at h
    rw [List.cons_append, Str.linesAux, if_neg (Ne.symm h.1), ih h.2]; simp

theorem linesAux_tail (l : Str) (h : '\n' ∉ l) : ∀ acc,
    Str.linesAux l acc = if acc ++ l = [] then [] else [acc ++ l] := by
  induction l with
  | nil => intro acc; simp [Str.linesAux]
  | cons c l ih =>
    intro acc
    simp only [List.mem_cons, not_or] at h
    rw [Str.linesAux, if_neg (Ne.symm h.1), ih h.2]; simp

/-- a line is read on its own -/
theorem parseStr_line (l rest : Str) (h : '\n' ∉ l) {a b} (ha : lineBytes (stripCr l) = .ok a) (hb : parseStr rest = .ok b) :
    parseStr (l ++ '\n' :: rest) = .ok (a ++ b) := by
  unfold parseStr Str.lines at *
  rw [linesAux_line l rest h]
  simp [linesBytes, ha, hb, bind, Except.bind]

theorem parseStr_words {s rest : Str} {ws : List Word} (h : Line s ws) {b} (hb : parseStr rest = .ok b) :
    parseStr (s ++ '\n' :: rest) = .ok (ws.flatMap Word.bytes ++ b) :=
  parseStr_line s rest (line_noNewline h) (lineBytes_line (line_strip h)) hb

theorem parseStr_comment {s rest : Str} (h : '\n' ∉ s) {b} (hb : parseStr rest = .ok b) :
    parseStr (commentPrefix ++ s ++ '\n' :: rest) = .ok b := by
  refine parseStr_line (a := []) (commentPrefix ++ s) rest ?_ ?_ hb
  · simp [commentPrefix, h]
  · apply lineBytes_comment
    by_cases hs : s = []
    · subst hs; decide
    · rw [stripCr_append hs]; simp [Str.startsWith, commentPrefix, List.isPrefixOf]

theorem parseStr_last {s : Str} {ws : List Word} (h : Line s ws) : parseStr s = .ok (ws.flatMap Word.bytes) := by
  unfold parseStr Str.lines
  rw [linesAux_tail s (line_noNewline h), List.nil_append]
  by_cases hs : s = []
  · subst hs
    have hl := lineBytes_line h
    rw [if_pos rfl]
    exact hl
  · rw [if_neg hs]
    simp [linesBytes, lineBytes_line h, bind, Except.bind]

theorem parseStr_nil : parseStr [] = .ok [] := rfl

end Thermal
