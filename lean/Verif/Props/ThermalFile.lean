import Verif.Proofs.SubLookup
import Verif.Proofs.ThermalSource
import Verif.Proofs.ParserNames
import Verif.Props.ParserStream
/-
C16–C19: the .thermal text format.
-/
namespace Thermal
open Spec

/-- C16.  Reading .thermal source never panics, whatever the text. -/
theorem C16_never_fails (text : Str) : ∃ bytes, parseStr text = .ok bytes := linesBytes_ok _

/-- C16 on an unterminated quote, a bare backslash, a multi-byte character next to a quote, an over-long number. -/
example : parseStr "é\"a\\".toList = .ok [97, 92] ∧ parseStr "0x".toList = .ok [] ∧ parseStr "256".toList = .ok [50, 53, 54] := by
  decide +kernel

/-- C17.  A quoted text is read back as exactly its bytes, if it has no line break. -/
theorem C17_quote_round_trip (t : Str) (h : '\n' ∉ t) :
    parseStr (quote t) = .ok (t.flatMap String.utf8EncodeChar) := by
  have := parseStr_last (Line.last (lead := []) (trail := []) (w := .quoted t) blanks_nil blanks_nil h)
  simpa [Word.src, Word.bytes] using this

/-- non-vacuity: quotes, backslashes in every adjacency, blanks and a two-byte character -/
example : '\n' ∉ "a\\\"\\\\ \"é".toList ∧
    parseStr "\"a\\\\\\\"\\\\\\\\ \\\"é\"".toList = .ok [97, 92, 34, 92, 92, 32, 34, 0xC3, 0xA9] := by decide +kernel

/-- The restriction in C17 is needed: source is read line by line. -/
theorem C17_line_break_differs : parseStr (quote ['a', '\n', 'b']) ≠ .ok (Str.bytes ['a', '\n', 'b']) := by decide +kernel

/-- C18.  A line of words separated by blanks is read as the concatenation of the bytes the words denote: decimal
numbers, hexadecimal numbers, symbolic constants and quoted texts. -/
theorem C18_words {s : Str} {ws : List Word} (h : Line s ws) : parseStr s = .ok (ws.flatMap Word.bytes) :=
  parseStr_last h

/-- C18 for whole files: each line is read on its own, comment lines and blank lines contribute nothing. -/
theorem C18_lines {s rest : Str} {ws : List Word} {bytes : List Byte} (h : Line s ws) (hr : parseStr rest = .ok bytes) :
    parseStr (s ++ '\n' :: rest) = .ok (ws.flatMap Word.bytes ++ bytes) := parseStr_words h hr

theorem C18_comments {s rest : Str} {bytes : List Byte} (hs : '\n' ∉ s) (hr : parseStr rest = .ok bytes) :
    parseStr ("'//".toList ++ s ++ '\n' :: rest) = .ok bytes := parseStr_comment hs hr

/-- non-vacuity: `ESC "@" 27 0x1b 0xFF` -/
example : Line "ESC \"@\" \t27 0x1b 0xFF ".toList
    [.const 1, .quoted ['@'], .dec 27, .hex 27 false false, .hex 255 true true] ∧
    parseStr "ESC \"@\" \t27 0x1b 0xFF ".toList = .ok [27, 64, 27, 27, 255] := by
  have hb : ∀ {s : Str}, s ⊆ [' ', '\t'] → Blanks s := by
    intro s h c hc
    have := h hc
    simp at this
    rcases this with rfl | rfl
    · exact Or.inl rfl
    · exact Or.inr (Or.inl rfl)
  have h5 : Line "0xFF ".toList [.hex 255 true true] :=
    Line.last (lead := []) (trail := [' ']) (w := .hex 255 true true) (hb (by simp)) (hb (by simp)) trivial
  have h4 := Line.more (lead := []) (sep := [' ']) (w := .hex 27 false false) (hb (by simp)) (hb (by simp)) (by simp) trivial h5
  have h3 := Line.more (lead := []) (sep := [' ']) (w := .dec 27) (hb (by simp)) (hb (by simp)) (by simp) trivial h4
  have h2 := Line.more (lead := []) (sep := [' ', '\t']) (w := .quoted ['@']) (hb (by simp)) (hb (by simp)) (by simp)
    (show '\n' ∉ ['@'] by decide) h3
  have h1 := Line.more (lead := []) (sep := [' ']) (w := .const 1) (hb (by simp)) (hb (by simp)) (by simp) trivial h2
  exact ⟨h1, by decide +kernel⟩

/-- C19 (partial).  Source written for a list of commands reads back as the concatenation of the bytes of the
commands, provided each is `Writable`: every command that is neither text nor unknown is; text has to be valid
UTF-8 without quotes, backslashes and line breaks; an unknown sequence has to be non-empty. -/
theorem C19_round_trip_partial (cmds : List Command) (h : ∀ c ∈ cmds, Writable c) :
    parseStr (cmdsToThermal cmds) = .ok (cmds.flatMap source) := cmds_parse cmds h

/-- C19 for parsed jobs: whatever commands the parser returns, those other than text and unknown never spoil the
round trip. -/
theorem C19_parsed_partial {bytes : List Byte} {cmds : List Command} (h : parseEscPos bytes = .ok cmds)
    (hw : ∀ c ∈ cmds, c.kind = .text ∨ c.kind = .unknown → Writable c) :
    parseStr (cmdsToThermal cmds) = .ok (cmds.flatMap source) := by
  refine cmds_parse cmds (fun c hc => ?_)
  by_cases h1 : c.kind = .text
  · exact hw c hc (Or.inl h1)
  · by_cases h2 : c.kind = .unknown
    · exact hw c hc (Or.inr h2)
    · exact Writable.command h1 h2 (names_ok h c hc)

/-- non-vacuity: ESC @, a text, LF, a 40-byte raster image, an unknown sequence -/
def sampleJob : List Byte :=
  [0x1B, 0x40, 72, 105, 0x0A, 0x1D, 0x76, 0x30, 0, 5, 0, 8, 0] ++ List.replicate 40 0xA5 ++ [0x1B, 0x40]

example : ∃ cmds, parseEscPos sampleJob = .ok cmds ∧ cmds.length = 7 ∧ cmds.flatMap source = sampleJob ∧
    parseStr (cmdsToThermal cmds) = .ok sampleJob := by
  refine ⟨_, rfl, ?_, ?_, ?_⟩ <;> decide +kernel

/-- What is missing from C19, with witnesses: text with a quote, a tab command, an empty unknown command. -/
theorem C19_full_claim_false :
    (∃ bytes cmds, parseEscPos bytes = .ok cmds ∧ cmds.flatMap source = bytes ∧
      parseStr (cmdsToThermal cmds) ≠ .ok bytes) ∧
    (∃ cmds, parseEscPos [0x09] = .ok cmds ∧ parseStr (cmdsToThermal cmds) ≠ .ok [0x09]) ∧
    (∃ cmds, parseEscPos [65] = .ok cmds ∧ cmds.flatMap source = [65] ∧ parseStr (cmdsToThermal cmds) ≠ .ok [65]) := by
  refine ⟨⟨[0x1B, 0x40, 0x22], _, rfl, ?_, ?_⟩, ⟨_, rfl, ?_⟩, ⟨_, rfl, ?_, ?_⟩⟩ <;> decide +kernel

/-! ### C85 -/

/-- A character of readable source: printable ASCII or a line feed. -/
abbrev readable (c : Char) : Prop := printableAscii c ∨ c = '\n'

theorem decimal_readable (b : Byte) : ∀ c ∈ decimal b, readable c := by
  refine byte_all (P := fun b => ∀ c ∈ decimal b, readable c) ?_ b
  decide +kernel

theorem tryConst_readable (b : Byte) : ∀ c ∈ tryConst b, readable c := by
  refine byte_all (P := fun b => ∀ c ∈ tryConst b, readable c) ?_ b
  decide +kernel

theorem tryString_readable (b : Byte) : ∀ c ∈ tryString b, readable c := by
  refine byte_all (P := fun b => ∀ c ∈ tryString b, readable c) ?_ b
  decide +kernel

theorem hex02_readable (b : Byte) : ∀ c ∈ hex02 b, readable c := by
  refine byte_all (P := fun b => ∀ c ∈ hex02 b, readable c) ?_ b
  decide +kernel

theorem all_append {P : Char → Prop} {a b : Str} (ha : ∀ c ∈ a, P c) (hb : ∀ c ∈ b, P c) : ∀ c ∈ a ++ b, P c := by
  intro c hc
  rcases List.mem_append.1 hc with h | h
  · exact ha c h
  · exact hb c h

theorem all_flatMap {α : Type} {P : Char → Prop} {l : List α} {f : α → Str} (h : ∀ x ∈ l, ∀ c ∈ f x, P c) : ∀ c ∈ l.flatMap f, P c := by
  intro c hc
  obtain ⟨x, hx, hc⟩ := List.mem_flatMap.1 hc
  exact h x hx c hc

theorem mem_trim {c : Char} {s : Str} (h : c ∈ s.trim) : c ∈ s := by
  unfold Str.trim at h
  rw [List.mem_reverse] at h
  have := (List.dropWhile_sublist _).mem h
  rw [List.mem_reverse] at this
  exact (List.dropWhile_sublist _).mem this

theorem unknown_readable (data : List Byte) : ∀ c ∈ explainUnknown data, readable c := by
  unfold explainUnknown
  split
  · refine all_append (all_append (all_append (all_append (tryConst_readable _) (by decide)) (tryString_readable _)) (by decide)) ?_
    exact all_flatMap fun b _ => all_append (tryConst_readable b) (by decide)
  · exact tryConst_readable _
  · decide

theorem explain_readable (data : List Byte) : ∀ c ∈ explainCommand data, readable c := by
  unfold explainCommand
  split
  · simp
  · refine all_append (all_append (tryConst_readable _) (by decide)) ?_
    exact all_flatMap fun b _ => all_append (tryString_readable b) (by decide)

/-- C85. The source written for commands of a stream other than text consists of printable ASCII characters and line feeds, whatever bytes
the commands and their data have. -/
theorem C85_readable_partial {bytes : List Byte} {cmds : List Command} (h : parseEscPos bytes = .ok cmds) :
    ∀ cmd ∈ cmds, cmd.kind ≠ .text → ∀ c ∈ cmdToThermal cmd, (32 ≤ c.toNat ∧ c.toNat ≤ 126) ∨ c = '\n' := by
  intro cmd hc hk
  show ∀ c ∈ cmdToThermal cmd, readable c
  unfold cmdToThermal
  dsimp only
  rw [if_neg hk]
  split
  · refine all_append (all_append (by decide) (unknown_readable _)) (by decide)
  · refine all_append (all_append (all_append (all_append (by decide) (fun c hn => .inl (names_printable h cmd hc c hn))) (by decide)) ?_) (by decide)
    split
    · refine all_append (explain_readable _) (all_flatMap fun b _ c hcc => ?_)
      rcases List.mem_cons.1 hcc with rfl | hcc
      · exact .inl (by decide)
      · exact decimal_readable b c hcc
    · refine all_append (all_append (explain_readable _) (by decide)) (all_flatMap fun ch _ => all_append (fun c hcc => ?_) (by decide))
      refine all_flatMap (fun b _ => all_append (by decide) (hex02_readable b)) c (mem_trim hcc)

/-- The text of a stream is written as it is, so control characters in it are not readable: the text "A", DEL. -/
theorem C85_text_not_readable : ∃ cmds, parseEscPos [27, 64, 65, 127] = .ok cmds ∧ ¬ ∀ cmd ∈ cmds, ∀ c ∈ cmdToThermal cmd, (32 ≤ c.toNat ∧ c.toNat ≤ 126) ∨ c = '\n' := by
  refine ⟨_, rfl, ?_⟩; decide +kernel

/-- C85, hypotheses met: an unknown command with the bytes 27 and 127, and one with 40 bytes of data. -/
example : ∃ cmds, parseEscPos ([27, 127] ++ sampleJob) = .ok cmds ∧ (∃ cmd ∈ cmds, cmd.kind = .unknown ∧ cmd.data = [27, 127]) ∧
    ∃ cmd ∈ cmds, cmd.kind ≠ .text ∧ (cmdToThermal cmd).length = 260 := by
  refine ⟨_, rfl, ?_, ?_⟩ <;> decide +kernel

end Thermal
