import Verif.Spec.Characters
import Verif.Props.Decoder
import Verif.Proofs.SubLookup
/-
C94. Text comes out in the characters that the printer's documentation gives for the selected code page and character set.  It does so except for the bytes
listed here, where the tables of the program are wrong, and except for the code pages that the program has no table for.
-/
namespace Thermal

/-- The bytes whose character in the program's code page is not the one of the code page: three in PC850, eight in PC865. -/
def wrongPage (page : Byte) : List Byte :=
  match page with
  | 2 => [0xBD, 0xBE, 0xF0]
  | 5 => [0x9E, 0xA9, 0xB5, 0xB6, 0xB7, 0xB8, 0xBD, 0xBE]
  | _ => []

/-- The bytes whose character in the program's national character set is not the documented one. -/
def wrongNational (set : Byte) : List Byte :=
  match set with
  | 1 => [0x5B, 0x5C, 0x5D, 0x5E, 0x60, 0x7B, 0x7C, 0x7D, 0x7E]
  | 2 => [0x60, 0x7B, 0x7C, 0x7D, 0x7E]
  | 4 => [0x40, 0x60]
  | 5 => [0x24]
  | 6 => [0x40, 0x5B, 0x5C, 0x5D, 0x5E, 0x60, 0x7B, 0x7C]
  | 7 => [0x23, 0x40, 0x5C, 0x5D, 0x7B, 0x7C, 0x7D, 0x7E]
  | 8 => [0x7C]
  | 9 => [0x24, 0x40, 0x60]
  | 11 => [0x5B, 0x5D, 0x5E, 0x60, 0x7B, 0x7C]
  | 12 => [0x5B, 0x5D, 0x5E, 0x60, 0x7B, 0x7C]
  | 13 => [0x7C]
  | 14 => [0x40, 0x5D, 0x5E, 0x60, 0x7B, 0x7D, 0x7E]
  | 15 => [0x24, 0x5C]
  | _ => []

/-- The character the documentation gives for a byte. -/
def documentedChar (page set b : Byte) : Option Char := if b < 128 then Spec.setChar set b else Spec.pageChar page b

/-- Whether the program has another character for the byte than the documented one. -/
def wrongChar (page set b : Byte) : Bool := if b < 128 then (wrongNational set).contains b else (wrongPage page).contains b

theorem byteText_high (page set b : Byte) (h : ¬ b < 128) :
    byteText page set b = ((pageNumbers.lookup page).getD table437).getD (b.toNat - 128) [] := by
  unfold byteText
  rw [if_pos (UInt8.not_lt.1 h)]

theorem byteText_low (page set b : Byte) (h : b < 128) :
    byteText page set b = (((setNumbers.lookup set).getD []).lookup b).getD [Char.ofNat b.toNat] := by
  unfold byteText
  rw [if_neg (UInt8.not_le.2 h)]

/-- The check of one page. -/
def pageGood (page b : Byte) : Bool :=
  match Spec.pageChar page b with
  | none => true
  | some c => (((pageNumbers.lookup page).getD table437).getD (b.toNat - 128) [] == [c]) == !(wrongPage page).contains b

/-- The check of one set. -/
def setGood (set b : Byte) : Bool :=
  match Spec.setChar set b with
  | none => true
  | some c => ((((setNumbers.lookup set).getD []).lookup b).getD [Char.ofNat b.toNat] == [c]) == !(wrongNational set).contains b

theorem pages_good (page b : Byte) : pageGood page b = true := by
  by_cases hp : page ∈ ([0, 1, 2, 3, 4, 5, 11, 12, 13] : List Byte)
  · revert b
    have : ∀ p ∈ ([0, 1, 2, 3, 4, 5, 11, 12, 13] : List Byte), ∀ n < 256, pageGood p (UInt8.ofNat n) = true := by decide +kernel
    intro b
    exact byte_all (P := fun b => pageGood page b = true) (this page hp) b
  · unfold pageGood
    have : Spec.pageChar page b = none := by
      unfold Spec.pageChar
      simp only [List.mem_cons, List.not_mem_nil, or_false, not_or] at hp
      split
      · rfl
      · split <;> first | (exfalso; simp_all; done) | rfl
    rw [this]

theorem sets_good (set b : Byte) : setGood set b = true := by
  by_cases hp : set ∈ ([0, 1, 2, 3, 4, 5, 6, 7, 8, 9, 10, 11, 12, 13, 14, 15, 66, 67, 68, 69, 70, 71, 72, 73, 74, 75, 82] : List Byte)
  · have : ∀ p ∈ ([0, 1, 2, 3, 4, 5, 6, 7, 8, 9, 10, 11, 12, 13, 14, 15, 66, 67, 68, 69, 70, 71, 72, 73, 74, 75, 82] : List Byte),
        ∀ n < 256, setGood p (UInt8.ofNat n) = true := by decide +kernel
    exact byte_all (P := fun b => setGood set b = true) (this set hp) b
  · have h : Spec.nationalRow set = none ∧ Spec.indianZero set = none := by
      have : ∀ n < 256, UInt8.ofNat n ∉ ([0, 1, 2, 3, 4, 5, 6, 7, 8, 9, 10, 11, 12, 13, 14, 15, 66, 67, 68, 69, 70, 71, 72, 73, 74, 75, 82] : List Byte) →
          (Spec.nationalRow (UInt8.ofNat n)).isNone = true ∧ (Spec.indianZero (UInt8.ofNat n)).isNone = true := by decide +kernel
      have := byte_all (P := fun s => s ∉ ([0, 1, 2, 3, 4, 5, 6, 7, 8, 9, 10, 11, 12, 13, 14, 15, 66, 67, 68, 69, 70, 71, 72, 73, 74, 75, 82] : List Byte) →
          (Spec.nationalRow s).isNone = true ∧ (Spec.indianZero s).isNone = true) this set hp
      simpa using this
    unfold setGood Spec.setChar
    rw [h.1, h.2]
    split
    · rfl
    · next heq => split at heq <;> simp at heq

/-- C94, partial. A byte from 128 on comes out as its character of the selected code page exactly when it is not one of the eleven bytes of PC850 and PC865 for
which the program's tables are wrong; the character set does not matter.  Missing: these eleven bytes. -/
theorem C94_pages_partial (page set b : Byte) (c : Char) (h : Spec.pageChar page b = some c) :
    (contextDecoder page set).decode [b] = .ok [c] ↔ b ∉ wrongPage page := by
  have hb : ¬ b < 128 := by
    intro hb
    unfold Spec.pageChar at h
    rw [if_pos hb] at h
    cases h
  have hp : page ≠ 255 := by
    rintro rfl
    unfold Spec.pageChar at h
    rw [if_neg hb] at h
    exact nomatch h
  rw [C59_text page set [b] hp]
  have := pages_good page b
  unfold pageGood at this
  rw [h] at this
  rw [List.flatMap_cons, List.flatMap_nil, List.append_nil, byteText_high page set b hb]
  rw [Except.ok.injEq]
  simp only [beq_iff_eq] at this
  by_cases hw : b ∈ wrongPage page
  · have hc : (wrongPage page).contains b = true := List.contains_iff_mem.2 hw
    rw [hc] at this
    simp only [Bool.not_true, beq_eq_false_iff_ne, ne_eq] at this
    exact ⟨fun x => absurd x this, fun x => absurd hw x⟩
  · have hc : (wrongPage page).contains b = false := by simpa using hw
    rw [hc] at this
    simp only [Bool.not_false, beq_iff_eq] at this
    exact ⟨fun _ => hw, fun _ => this⟩

/-- C94, partial. A byte below 128 comes out as its documented character of the selected international character set exactly when it is not one of the bytes
listed in `wrongNational`; the code page does not matter (as long as it is not the one that reads UTF-8).  Missing: the listed bytes. -/
theorem C94_national_partial (page set b : Byte) (c : Char) (hp : page ≠ 255) (h : Spec.setChar set b = some c) :
    (contextDecoder page set).decode [b] = .ok [c] ↔ b ∉ wrongNational set := by
  have hb : b < 128 := by
    refine Classical.byContradiction fun hb => ?_
    unfold Spec.setChar at h
    rw [if_pos (UInt8.not_lt.1 hb)] at h
    cases h
  rw [C59_text page set [b] hp]
  have := sets_good set b
  unfold setGood at this
  rw [h] at this
  rw [List.flatMap_cons, List.flatMap_nil, List.append_nil, byteText_low page set b hb]
  rw [Except.ok.injEq]
  simp only [beq_iff_eq] at this
  by_cases hw : b ∈ wrongNational set
  · have hc : (wrongNational set).contains b = true := List.contains_iff_mem.2 hw
    rw [hc] at this
    simp only [Bool.not_true, beq_eq_false_iff_ne, ne_eq] at this
    exact ⟨fun x => absurd x this, fun x => absurd hw x⟩
  · have hc : (wrongNational set).contains b = false := by simpa using hw
    rw [hc] at this
    simp only [Bool.not_false, beq_iff_eq] at this
    exact ⟨fun _ => hw, fun _ => this⟩

theorem byteText_documented (page set b : Byte) (c : Char) (hp : page ≠ 255) (h : documentedChar page set b = some c) :
    byteText page set b = [c] ↔ wrongChar page set b = false := by
  have one : (contextDecoder page set).decode [b] = .ok (byteText page set b) := by
    rw [C59_text page set [b] hp, List.flatMap_cons, List.flatMap_nil, List.append_nil]
  unfold documentedChar at h
  unfold wrongChar
  split at h
  · next hb =>
    have := C94_national_partial page set b c hp h
    rw [one, Except.ok.injEq] at this
    rw [this, if_pos hb]
    simp
  · next hb =>
    have := C94_pages_partial page set b c h
    rw [one, Except.ok.injEq] at this
    rw [this, if_neg hb]
    simp

/-- C94, partial. Texts of every length: if the documentation gives the characters `cs` for the bytes, and none of the bytes is one whose character the program
has wrong, then the text reads exactly `cs`. -/
theorem C94_text_partial (page set : Byte) (bs : List Byte) (cs : List Char) (hp : page ≠ 255)
    (h : bs.map (documentedChar page set) = cs.map some) (hw : ∀ b ∈ bs, wrongChar page set b = false) :
    (contextDecoder page set).decode bs = .ok cs := by
  rw [C59_text page set bs hp]
  congr 1
  induction bs generalizing cs with
  | nil => cases cs with
    | nil => rfl
    | cons c cs => simp at h
  | cons b bs ih => cases cs with
    | nil => simp at h
    | cons c cs =>
      rw [List.map_cons, List.map_cons, List.cons.injEq] at h
      rw [List.flatMap_cons, ih cs h.2 (fun x hx => hw x (List.mem_cons_of_mem _ hx)),
        (byteText_documented page set b c hp h.1).2 (hw b (List.mem_cons_self ..))]
      rfl

/-- C94. The code pages of the documentation that the program has no table for are read as PC437. -/
theorem C94_missing (page set : Byte) (bs : List Byte) (h : page ∈ Spec.missingPages) :
    (contextDecoder page set).decode bs = (contextDecoder 0 set).decode bs := by
  have hl : ∀ p ∈ Spec.missingPages, p ≠ 255 ∧ (pageNumbers.lookup p).isNone = true := by decide +kernel
  obtain ⟨h1, h2⟩ := hl page h
  rw [C59_text page set bs h1, C59_text 0 set bs (by decide)]
  have h2 : pageNumbers.lookup page = none := by simpa using h2
  have h0 : (pageNumbers.lookup 0).getD table437 = table437 := by rfl
  have : byteText page set = byteText 0 set := by
    funext b
    unfold byteText
    rw [h2, h0]
    rfl
  rw [this]

/-- C94, deviations: the German word `süß` (ESC R 2) ends in the wrong letters; the cent sign of PC850 is a box corner; the euro sign of PC858 (ESC t 19) is a box
corner, that of WPC1252 (ESC t 16) is `Ç`. -/
theorem C94_deviations :
    (Spec.setChar 2 0x7D = some 'ü' ∧ Spec.setChar 2 0x7E = some 'ß' ∧ (contextDecoder 0 2).decode [0x73, 0x7D, 0x7E] ≠ .ok "süß".toList) ∧
    (Spec.pageChar 2 0xBD = some '¢' ∧ (contextDecoder 2 0).decode [0xBD] = .ok "╜".toList) ∧
    (contextDecoder 19 0).decode [0xD5] = .ok "╒".toList ∧ (contextDecoder 16 0).decode [0x80] = .ok "Ç".toList := by
  refine ⟨⟨by decide +kernel, by decide +kernel, ?_⟩, ⟨by decide +kernel, ?_⟩, ?_, ?_⟩
  · rw [C59_text 0 2 _ (by decide)]
    intro h
    exact absurd (Except.ok.inj h) (by decide +kernel)
  · rw [C59_text 2 0 _ (by decide)]
    exact congrArg _ (by decide +kernel)
  · rw [C59_text 19 0 _ (by decide)]
    exact congrArg _ (by decide +kernel)
  · rw [C59_text 16 0 _ (by decide)]
    exact congrArg _ (by decide +kernel)

/-- C94, concrete: a Danish text in PC865, a Greek one in PC851, a Swedish one in the national set. -/
example : (contextDecoder 5 0).decode [0x52, 0x9B, 0x64] = .ok "Rød".toList ∧
    (contextDecoder 11 0).decode [0xA4, 0xD7, 0xD6] = .ok "Αβα".toList ∧
    (contextDecoder 0 5).decode [0x5C, 0x6C] = .ok "Öl".toList :=
  ⟨C94_text_partial 5 0 _ _ (by decide) (by decide +kernel) (by decide +kernel),
    C94_text_partial 11 0 _ _ (by decide) (by decide +kernel) (by decide +kernel),
    C94_text_partial 0 5 _ _ (by decide) (by decide +kernel) (by decide +kernel)⟩

end Thermal
