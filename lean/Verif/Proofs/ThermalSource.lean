import Verif.Proofs.ThermalWords
import Verif.Proofs.Utf8
import Verif.Spec.ThermalSource
/-
Writing commands and reading them back.
-/
namespace Thermal
open Spec
set_option linter.unusedSimpArgs false

theorem tryConst_word (b : Byte) : ∃ w : Word, w.src = tryConst b ∧ w.bytes = [b] ∧ w.oneLine := by
  by_cases h : tryConst b = (Word.hex b true true).src
  · exact ⟨_, h.symm, rfl, trivial⟩
  · have : ∃ i : Fin 10, (Word.const i).src = tryConst b ∧ (Word.const i).bytes = [b] := by
      revert h; revert b; apply byte_all; decide +kernel
    obtain ⟨i, h1, h2⟩ := this
    exact ⟨_, h1, h2, trivial⟩

theorem tryString_word (b : Byte) : ∃ w : Word, w.src = tryString b ∧ w.bytes = [b] ∧ w.oneLine := by
  by_cases h : tryString b = (Word.dec b).src
  · exact ⟨_, h.symm, rfl, trivial⟩
  · have : (Word.quoted [Char.ofNat b.toNat]).src = tryString b ∧ (Word.quoted [Char.ofNat b.toNat]).bytes = [b] ∧
        '\n' ∉ [Char.ofNat b.toNat] := by
      revert h; revert b; apply byte_all; decide +kernel
    exact ⟨_, this⟩

theorem decimal_word (b : Byte) : decimal b = (Word.dec b).src := by
  revert b; apply byte_all; decide +kernel

theorem hex_word (b : Byte) : "0x".toList ++ hex02 b = (Word.hex b true true).src := by
  revert b; apply byte_all; decide +kernel

/-! words with trailing blanks, words with leading blanks -/

theorem blanks_space : Blanks [' '] := by intro c hc; simp at hc; subst hc; exact Or.inl rfl
theorem blanks_nil : Blanks [] := by simp [Blanks]

/-- each word followed by a blank, then more -/
theorem line_trailing (f : Byte → Str) (hf : ∀ b, ∃ w : Word, w.src = f b ∧ w.bytes = [b] ∧ w.oneLine)
    (bs : List Byte) {s : Str} {ws : List Word} (h : Line s ws) :
    ∃ vs, Line (bs.flatMap (fun b => f b ++ [' ']) ++ s) vs ∧ vs.flatMap Word.bytes = bs ++ ws.flatMap Word.bytes := by
  induction bs with
  | nil => exact ⟨ws, h, rfl⟩
  | cons b bs ih =>
    obtain ⟨vs, h1, h2⟩ := ih
    obtain ⟨w, e1, e2, e3⟩ := hf b
    refine ⟨w :: vs, ?_, ?_⟩
    · have := Line.more (lead := []) (sep := [' ']) blanks_nil blanks_space (by simp) e3 h1
      rw [e1] at this; simpa using this
    · simp [h2, e2]

/-- each word preceded by a blank -/
theorem line_leading (bs : List Byte) : Line (bs.flatMap (fun b => ' ' :: decimal b)) (bs.map Word.dec) := by
  rcases bs with _ | ⟨b, bs⟩
  · exact Line.empty blanks_nil
  · have key : ∀ (b : Byte) (bs : List Byte),
        Line (decimal b ++ bs.flatMap (fun b => ' ' :: decimal b)) ((b :: bs).map Word.dec) := by
      intro b bs
      induction bs generalizing b with
      | nil => rw [decimal_word]; exact Line.last (lead := []) (trail := []) blanks_nil blanks_nil (show (Word.dec b).oneLine from trivial)
      | cons d bs ih =>
        have := Line.more (lead := []) (sep := [' ']) (w := Word.dec b) blanks_nil blanks_space (by simp) trivial (ih d)
        rw [← decimal_word] at this; simpa using this
    have h := key b bs
    have e : (b :: bs).flatMap (fun b => ' ' :: decimal b) = ' ' :: (decimal b ++ bs.flatMap (fun b => ' ' :: decimal b)) := by
      simp
    rw [e]
    cases bs with
    | nil =>
      rw [decimal_word]
      exact Line.last (lead := [' ']) (trail := []) blanks_space blanks_nil (show (Word.dec b).oneLine from trivial)
    | cons d bs =>
      have := Line.more (lead := [' ']) (sep := [' ']) (w := Word.dec b) blanks_space blanks_space (by simp) trivial (key d bs)
      rw [← decimal_word] at this; simpa using this

theorem line_hex (b : Byte) (bs : List Byte) :
    Line ((Word.hex b true true).src ++ bs.flatMap (fun b => ' ' :: (Word.hex b true true).src))
      ((b :: bs).map (fun b => Word.hex b true true)) := by
  induction bs generalizing b with
  | nil => exact Line.last (lead := []) (trail := []) blanks_nil blanks_nil (show (Word.hex b true true).oneLine from trivial)
  | cons d bs ih =>
    have := Line.more (lead := []) (sep := [' ']) (w := Word.hex b true true) blanks_nil blanks_space (by simp) trivial (ih d)
    simpa using this

theorem words_dec_bytes (bs : List Byte) : (bs.map Word.dec).flatMap Word.bytes = bs := by
  induction bs with
  | nil => rfl
  | cons b bs ih => simp [ih, Word.bytes]

theorem words_hex_bytes (bs : List Byte) : (bs.map (fun b => Word.hex b true true)).flatMap Word.bytes = bs := by
  induction bs with
  | nil => rfl
  | cons b bs ih => simp [ih, Word.bytes]

theorem src_last (b : Byte) : ∃ l c, (Word.hex b true true).src = l ++ [c] ∧ isWhitespace c = false := by
  have : ∀ b : Byte, isWhitespace ((Word.hex b true true).src.getLast?.getD ' ') = false := by
    apply byte_all; decide +kernel
  have h := this b
  refine ⟨['0', 'x', digitChar true (b.toNat / 16)], digitChar true (b.toNat % 16), rfl, ?_⟩
  simpa [Word.src] using h

theorem hexs_last (b : Byte) (bs : List Byte) : ∃ l c,
    (Word.hex b true true).src ++ bs.flatMap (fun b => ' ' :: (Word.hex b true true).src) = l ++ [c] ∧ isWhitespace c = false := by
  rcases List.eq_nil_or_concat bs with rfl | ⟨xs, d, rfl⟩
  · obtain ⟨l, c, h1, h2⟩ := src_last b
    exact ⟨l, c, by simp [h1], h2⟩
  · obtain ⟨l, c, h1, h2⟩ := src_last d
    refine ⟨(Word.hex b true true).src ++ xs.flatMap (fun b => ' ' :: (Word.hex b true true).src) ++ ' ' :: l, c, ?_, h2⟩
    simp [h1]

theorem trim_eq {s l r : Str} {c d : Char} (h1 : s = c :: r) (hc : isWhitespace c = false) (h2 : s = l ++ [d])
    (hd : isWhitespace d = false) : Str.trim (' ' :: s) = s := by
  unfold Str.trim
  have e1 : List.dropWhile isWhitespace (' ' :: s) = s := by
    rw [List.dropWhile_cons_of_pos (by decide), h1, List.dropWhile_cons_of_neg (by simp [hc])]
  rw [e1]
  have e2 : List.dropWhile isWhitespace s.reverse = s.reverse := by
    rw [h2, List.reverse_append]
    exact List.dropWhile_cons_of_neg (by simp [hd])
  rw [e2, List.reverse_reverse]

theorem chunk_line (b : Byte) (bs : List Byte) : ∃ ws,
    Line (Str.trim ((b :: bs).flatMap (fun b => " 0x".toList ++ hex02 b))) ws ∧ ws.flatMap Word.bytes = b :: bs := by
  have e : (b :: bs).flatMap (fun b => " 0x".toList ++ hex02 b) =
      ' ' :: ((Word.hex b true true).src ++ bs.flatMap (fun b => ' ' :: (Word.hex b true true).src)) := by
    have : ∀ b : Byte, " 0x".toList ++ hex02 b = ' ' :: (Word.hex b true true).src := by
      apply byte_all; decide +kernel
    simp only [this, List.flatMap_cons, List.cons_append]
  obtain ⟨l, d, h1, h2⟩ := hexs_last b bs
  refine ⟨(b :: bs).map (fun b => Word.hex b true true), ?_, words_hex_bytes _⟩
  rw [e, trim_eq (c := '0') (d := d) (l := l) (by simp only [Word.src, List.cons_append]; rfl) (by decide) h1 h2]
  exact line_hex b bs

theorem chunks_parse : ∀ (n : Nat) (d rest : List Byte) (s : Str), d.length ≤ n → parseStr s = .ok rest →
    parseStr ((chunks32 n d).flatMap (fun chunk =>
          Str.trim (chunk.flatMap (fun b => " 0x".toList ++ hex02 b)) ++ ['\n']) ++ s) = .ok (d ++ rest) := by
  intro n
  induction n with
  | zero => intro d rest s hd h; rw [List.length_eq_zero_iff.1 (Nat.le_zero.1 hd)]; exact h
  | succ n ih =>
    intro d rest s hd h
    rcases d with _ | ⟨b, d⟩
    · exact h
    · rw [chunks32, List.flatMap_cons]
      · have hdrop := ih ((b :: d).drop 32) rest s (by simp at hd ⊢; omega) h
        obtain ⟨ws, h1, h2⟩ := chunk_line b (d.take 31)
        have h3 := parseStr_words h1 hdrop
        have et : (b :: d).take 32 = b :: d.take 31 := by simp
        rw [h2] at h3
        simp only [List.append_assoc, List.singleton_append, List.cons_append, List.nil_append, et]
        rw [h3, show (b :: d.take 31) = (b :: d).take 32 from et.symm, ← List.append_assoc, List.take_append_drop, List.cons_append]
      · simp

theorem explainCommand_line (bytes : List Byte) {s : Str} {ws : List Word} (h : Line s ws) :
    ∃ vs, Line (explainCommand bytes ++ s) vs ∧ vs.flatMap Word.bytes = bytes ++ ws.flatMap Word.bytes := by
  rcases bytes with _ | ⟨b, bs⟩
  · exact ⟨ws, h, rfl⟩
  · obtain ⟨vs, h1, h2⟩ := line_trailing tryString tryString_word bs h
    obtain ⟨us, h3, h4⟩ := line_trailing tryConst tryConst_word [b] h1
    refine ⟨us, ?_, by rw [h4, h2]; simp⟩
    simpa [explainCommand] using h3

theorem blank_line_parse {rest : List Byte} {s : Str} (h : parseStr s = .ok rest) : parseStr ('\n' :: s) = .ok rest := by
  have hl : lineBytes (stripCr []) = .ok [] := by decide
  have := parseStr_line (a := []) [] s (by simp) hl h
  simpa only [List.nil_append] using this

theorem explainUnknown_line (d : List Byte) (h : d ≠ []) : ∃ ws, Line (' ' :: explainUnknown d) ws ∧ ws.flatMap Word.bytes = d := by
  rcases d with _ | ⟨b, _ | ⟨b2, bs⟩⟩
  · exact absurd rfl h
  · obtain ⟨w, e1, e2, e3⟩ := tryConst_word b
    refine ⟨[w], ?_, by simp [e2]⟩
    have := Line.last (lead := [' ']) (trail := []) blanks_space blanks_nil e3
    rw [e1, List.append_nil] at this
    have e : ' ' :: explainUnknown [b] = [' '] ++ tryConst b := rfl
    rw [e]; exact this
  · obtain ⟨vs, h1, h2⟩ := line_trailing tryConst tryConst_word bs (s := []) (ws := []) (Line.empty blanks_nil)
    obtain ⟨us, h3, h4⟩ := line_trailing tryString tryString_word [b2] h1
    obtain ⟨w, e1, e2, e3⟩ := tryConst_word b
    have := Line.more (lead := [' ']) (sep := [' ']) blanks_space blanks_space (by simp) e3 h3
    rw [e1] at this
    have e : ' ' :: explainUnknown (b :: b2 :: bs) =
      ' ' :: (tryConst b ++ [' '] ++ tryString b2 ++ [' '] ++ bs.flatMap (fun b => tryConst b ++ [' '])) := rfl
    refine ⟨w :: us, by rw [e]; simpa using this, ?_⟩
    simp [h4, h2, e2]

theorem escape_plain (t : Str) (h1 : '"' ∉ t) (h2 : '\\' ∉ t) : t.flatMap escapeChar = t := by
  induction t with
  | nil => rfl
  | cons c t ih =>
    simp only [List.mem_cons, not_or] at h1 h2
    rw [List.flatMap_cons, ih h1.2 h2.2, escapeChar, if_neg (Ne.symm h2.1), if_neg (Ne.symm h1.1)]; rfl

theorem cmd_parse {c : Command} (hw : Writable c) {s : Str} {rest : List Byte} (h : parseStr s = .ok rest) :
    parseStr (cmdToThermal c ++ s) = .ok (source c ++ rest) := by
  have e0 : c.getCommandBytes = (c.getCommandBytes.1, c.getCommandBytes.2) := rfl
  cases hw with
  | command h1 h2 h3 =>
    unfold cmdToThermal source
    rw [if_neg h2, e0]
    generalize c.getCommandBytes.1 = ops at *
    generalize c.getCommandBytes.2 = data at *
    simp only [if_neg h1, if_neg h2]
    have hcom : "'// ".toList = commentPrefix ++ [' '] := by decide
    split
    · obtain ⟨ws, g1, g2⟩ := explainCommand_line ops (line_leading data)
      rw [words_dec_bytes] at g2
      have := parseStr_words g1 (blank_line_parse h)
      rw [g2] at this
      have := parseStr_comment (s := ' ' :: c.name.toList) (by simp [h3]) this
      rw [hcom]
      simpa using this
    · obtain ⟨ws, g1, g2⟩ := explainCommand_line ops (s := []) (ws := []) (Line.empty blanks_nil)
      have hc := chunks_parse data.length data rest ('\n' :: '\n' :: s) (Nat.le_refl _) (blank_line_parse (blank_line_parse h))
      have := parseStr_words g1 hc
      rw [g2] at this
      have := parseStr_comment (s := ' ' :: c.name.toList) (by simp [h3]) this
      rw [hcom]
      simpa using this
  | unknown h1 h2 =>
    unfold cmdToThermal source
    rw [if_pos h1, e0]
    simp only []
    rw [if_neg (by rw [h1]; decide), if_pos h1]
    obtain ⟨ws, g1, g2⟩ := explainUnknown_line c.getCommandBytes.2 h2
    have := parseStr_words g1 (blank_line_parse h)
    rw [g2] at this
    have := parseStr_comment (s := " Unknown command ".toList) (by decide) this
    have hcom : "'// Unknown command \n ".toList = commentPrefix ++ " Unknown command ".toList ++ ['\n', ' '] := by decide
    rw [hcom]
    simpa using this
  | lineFeed h1 h2 =>
    unfold cmdToThermal source
    rw [h2]
    simp only []
    rw [if_pos h1, if_pos (by rfl), if_neg (by rw [h1]; decide)]
    have := parseStr_words (Line.last (lead := []) (trail := [' ']) (w := Word.const 3) blanks_nil blanks_space trivial) h
    have e : "LF \n".toList = ([] ++ (Word.const 3).src ++ [' ']) ++ ['\n'] := by decide
    rw [e]
    have e2 : [Word.const 3].flatMap Word.bytes = [LF] := by decide
    rw [e2] at this
    simpa using this
  | text t h1 h2 h3 h4 h5 =>
    unfold cmdToThermal source
    rw [h2]
    simp only []
    rw [if_pos h1, if_neg (by simp), if_neg (by rw [h1]; decide), show t.flatMap String.utf8EncodeChar = t.bytes from rfl, lossy_bytes]
    have := parseStr_words (Line.last (lead := []) (trail := []) (w := Word.quoted t) blanks_nil blanks_nil h5) h
    simp only [Word.src, quote, escape_plain t h3 h4] at this
    simpa [Word.bytes, Str.bytes] using this

theorem cmds_parse (cs : List Command) (h : ∀ c ∈ cs, Writable c) :
    parseStr (cmdsToThermal cs) = .ok (cs.flatMap source) := by
  induction cs with
  | nil => rfl
  | cons c cs ih =>
    rw [cmdsToThermal, List.flatMap_cons, List.flatMap_cons]
    exact cmd_parse (h c (by simp)) (ih (fun d hd => h d (by simp [hd])))

end Thermal
