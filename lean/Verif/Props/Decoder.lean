import Verif.Model.Decoder
import Verif.Spec.Decoder
import Verif.Proofs.SubLookup
import Verif.Proofs.Utf8
/-
C57, C58, C59: the text decoder.
-/
namespace Thermal

/-- All code page tables that can be selected. -/
theorem codepageTable_mem (n : Byte) :
    codepageTable n ∈ [table437, tableKatakana, table850, table860, table863, table865, table851, table853, table857] := by
  unfold codepageTable
  repeat' split
  all_goals simp

/-- A property of the lower half depends on the language only. -/
def lowTable (l : Byte) : List Str := (languageReplacements l).foldl (fun t r => t.set r.1.toNat r.2) tableBase

theorem replacements_low : ∀ l : Byte, ∀ r ∈ languageReplacements l, r.1.toNat < 128 := by
  have : ∀ l : Byte, (languageReplacements l).all (fun r => decide (r.1.toNat < 128)) = true := by
    apply byte_all; decide +kernel
  intro l r hr
  have h := List.all_eq_true.1 (this l) r hr
  simpa using h

theorem fold_set_append {α} (rs : List (Byte × α)) : ∀ (a b : List α), (∀ r ∈ rs, r.1.toNat < a.length) →
    rs.foldl (fun t r => t.set r.1.toNat r.2) (a ++ b) = rs.foldl (fun t r => t.set r.1.toNat r.2) a ++ b := by
  induction rs with
  | nil => intros; rfl
  | cons r rs ih =>
    intro a b h
    simp only [List.foldl_cons]
    rw [List.set_append_left _ _ (h r (by simp))]
    apply ih
    intro q hq
    rw [List.length_set]
    exact h q (List.mem_cons_of_mem _ hq)

theorem table_split (p l : Byte) : (getCodepage p l).table = lowTable l ++ codepageTable p := by
  unfold getCodepage lowTable
  apply fold_set_append
  intro r hr
  rw [show tableBase.length = 128 from by decide +kernel]
  exact replacements_low l r hr

theorem low_length (l : Byte) : (lowTable l).length = 128 := by
  unfold lowTable
  generalize languageReplacements l = rs
  have : ∀ t : List Str, (rs.foldl (fun t r => t.set r.1.toNat r.2) t).length = t.length := by
    induction rs with
    | nil => intro; rfl
    | cons r rs ih => intro t; rw [List.foldl_cons, ih, List.length_set]
  rw [this]
  decide +kernel

theorem page_length (p : Byte) : (codepageTable p).length = 128 := by
  have h := codepageTable_mem p
  simp only [List.mem_cons, List.not_mem_nil, or_false] at h
  rcases h with h | h | h | h | h | h | h | h | h <;> rw [h] <;> decide +kernel

theorem table_length (p l : Byte) : (getCodepage p l).table.length = 256 := by
  rw [table_split, List.length_append, low_length, page_length]

theorem decodeTable_ok (t : List Str) (h : t.length = 256) (bs : List Byte) :
    decodeTable t bs = .ok (bs.flatMap (fun b => t.getD b.toNat [])) := by
  induction bs with
  | nil => rfl
  | cons b bs ih =>
    have hb : b.toNat < t.length := by rw [h]; exact b.toNat_lt
    simp only [decodeTable, idx]
    rw [List.getElem?_eq_getElem hb, ih]
    simp [bind, Except.bind, pure, Except.pure, List.getElem?_eq_getElem hb]

theorem decode_ok (p l : Byte) (bs : List Byte) :
    (getCodepage p l).decode bs = .ok (bs.flatMap (fun b => (getCodepage p l).table.getD b.toNat [])) := by
  unfold Codepage.decode
  rw [show (getCodepage p l).useUtf8 = false from rfl]
  exact decodeTable_ok _ (table_length p l) bs

/-- C58. For every code page and language the decoder is total and a homomorphism: the text of `a ++ b` is the text of
`a` followed by the text of `b`. -/
theorem C58_homomorphism (p l : Byte) (a b : List Byte) :
    ∃ s t, (getCodepage p l).decode a = .ok s ∧ (getCodepage p l).decode b = .ok t ∧
      (getCodepage p l).decode (a ++ b) = .ok (s ++ t) := by
  refine ⟨_, _, decode_ok p l a, decode_ok p l b, ?_⟩
  rw [decode_ok, List.flatMap_append]

theorem page_single (p b : Byte) (hb : b ≥ 0x80) :
    ((codepageTable p)[b.toNat - 128]?.getD []).length = if undefinedByte p b then 0 else 1 := by
  have hp : ∀ p : Byte, (decide (p = 11 ∧ codepageTable p = table851 ∨ p = 12 ∧ codepageTable p = table853 ∨
      p = 13 ∧ codepageTable p = table857 ∨ (p ≠ 11 ∧ p ≠ 12 ∧ p ≠ 13) ∧
        codepageTable p ∈ [table437, tableKatakana, table850, table860, table863, table865])) = true := by
    apply byte_all; decide +kernel
  have hp := of_decide_eq_true (hp p)
  have ht (q : Byte) (t : List Str) (h : (List.range 256).all (fun i => decide (i < 128) ||
      decide ((t[i - 128]?.getD []).length = if undefinedByte q (UInt8.ofNat i) then 0 else 1)) = true) :
      (t[b.toNat - 128]?.getD []).length = if undefinedByte q b then 0 else 1 := by
    have := List.all_eq_true.1 h b.toNat (List.mem_range.2 b.toNat_lt)
    rw [Bool.or_eq_true, decide_eq_true_eq, decide_eq_true_eq, UInt8.ofNat_toNat] at this
    have h2 := UInt8.le_iff_toNat_le.1 hb
    rw [show (0x80 : Byte).toNat = 128 from rfl] at h2
    exact this.resolve_left (by omega)
  rcases hp with ⟨rfl, h⟩ | ⟨rfl, h⟩ | ⟨rfl, h⟩ | ⟨⟨h1, h2, h3⟩, h⟩
  · rw [h]; exact ht 11 _ (by decide +kernel)
  · rw [h]; exact ht 12 _ (by decide +kernel)
  · rw [h]; exact ht 13 _ (by decide +kernel)
  · have e : undefinedByte p b = undefinedByte 0 b := by
      unfold undefinedByte
      simp [h1, h2, h3]
    rw [e]
    simp only [List.mem_cons, List.not_mem_nil, or_false] at h
    rcases h with h | h | h | h | h | h <;> rw [h] <;> exact ht 0 _ (by decide +kernel)

theorem low_single (l : Byte) : ∀ s ∈ lowTable l, s.length = 1 := by
  have : ∀ l : Byte, (lowTable l).all (fun s => s.length == 1) = true := by
    apply byte_all; decide +kernel
  intro s hs
  simpa using List.all_eq_true.1 (this l) s hs

/-- C58. Every byte becomes exactly one character, except the code points that the code page leaves undefined: they
disappear. -/
theorem C58_one_character_per_byte (p l b : Byte) :
    ∃ s, (getCodepage p l).decode [b] = .ok s ∧ s.length = if undefinedByte p b then 0 else 1 := by
  refine ⟨_, decode_ok p l [b], ?_⟩
  simp only [List.flatMap_cons, List.flatMap_nil, List.append_nil]
  rw [List.getD_eq_getElem?_getD, table_split]
  by_cases hlow : b < 0x80
  · have hl := UInt8.lt_iff_toNat_lt.1 hlow
    rw [List.getElem?_append_left (by rw [low_length]; exact hl),
      List.getElem?_eq_getElem (by rw [low_length]; exact hl)]
    have : undefinedByte p b = false := by
      unfold undefinedByte
      have : ∀ b : Byte, (!decide (b < 0x80) || (!([0xAA, 0xD0, 0xD1, 0xDD, 0xF1, 0xFB] : List Byte).contains b &&
        !([0xE7, 0xF2] : List Byte).contains b && !(b == 0x91))) = true := by apply byte_all; decide +kernel
      have := this b
      simp only [hlow, decide_true, Bool.not_true, Bool.false_or, Bool.and_eq_true, Bool.not_eq_true'] at this
      rw [this.1.1, this.1.2, this.2]
      simp
    rw [this]
    exact low_single l _ (List.getElem_mem _)
  · have hge : b ≥ 0x80 := UInt8.not_lt.1 hlow
    have h2 := UInt8.le_iff_toNat_le.1 hge
    rw [List.getElem?_append_right (by rw [low_length]; exact h2), low_length]
    exact page_single p b hge

/-- An `ESC R` number without a table. -/
theorem unknown_language : ∀ l : Byte, (europeanLanguage l || indianLanguage l) = false →
    languageReplacements l = [] := by
  have : ∀ l : Byte, (europeanLanguage l || indianLanguage l || decide (languageReplacements l = [])) = true := by
    apply byte_all; decide +kernel
  intro l h
  have := this l
  rw [h] at this
  simpa using this

theorem base_ascii : ∀ b < 128, (tableBase[b]?).getD [] = [Char.ofNat b] := by decide +kernel

theorem decode_ascii_aux (p l : Byte) (hl : languageReplacements l = []) (bs : List Byte) (hbs : ∀ b ∈ bs, b < 0x80) :
    bs.flatMap (fun b => (getCodepage p l).table.getD b.toNat []) = asciiText bs := by
  unfold asciiText
  rw [← List.flatMap_singleton' (bs.map _)]
  simp only [List.flatMap_def, List.map_map]
  congr 1
  apply List.map_congr_left
  intro b hb
  have hb : b.toNat < 128 := UInt8.lt_iff_toNat_lt.1 (hbs b hb)
  simp only [Function.comp]
  rw [List.getD_eq_getElem?_getD, table_split]
  rw [List.getElem?_append_left (by rw [low_length]; exact hb)]
  unfold lowTable
  rw [hl]
  exact base_ascii b.toNat hb

theorem lossy_ascii (bs : List Byte) (hbs : ∀ b ∈ bs, b < 0x80) : fromUtf8Lossy bs = asciiText bs := by
  have : bs = (asciiText bs).bytes := by
    unfold asciiText Str.bytes
    induction bs with
    | nil => rfl
    | cons b bs ih =>
      simp only [List.map_cons, List.flatMap_cons]
      rw [← ih (fun c hc => hbs c (List.mem_cons_of_mem _ hc))]
      have hb := hbs b (by simp)
      have : ∀ b : Byte, (!decide (b < 0x80) || decide (String.utf8EncodeChar (Char.ofNat b.toNat) = [b])) = true := by
        apply byte_all; decide +kernel
      have := this b
      simp [hb] at this
      rw [this]; rfl
  conv => lhs; rw [this]
  rw [lossy_bytes]

/-- C57. Whatever code page is selected (`ESC t n`, including 255 = UTF-8) and under the U.S.A. character set or any
character set number without a table (`ESC R n`), text of 7-bit ASCII bytes decodes to exactly those characters. -/
theorem C57_ascii_invariant (page lang : Byte) (hl : (europeanLanguage lang || indianLanguage lang) = false)
    (bs : List Byte) (hbs : ∀ b ∈ bs, b < 0x80) :
    (contextDecoder page lang).decode bs = .ok (asciiText bs) := by
  unfold contextDecoder Codepage.decode
  dsimp only
  split
  · rw [lossy_ascii bs hbs]; rfl
  · rw [decodeTable_ok _ (table_length page lang), decode_ascii_aux page lang (unknown_language lang hl) bs hbs]

/-- C57, the hypotheses are met: "Total: $5" on the Greek code page. -/
example : (contextDecoder 11 0).decode [0x54, 0x6F, 0x74, 0x61, 0x6C, 0x3A, 0x20, 0x24, 0x35] = .ok "Total: $5".toList :=
  (C57_ascii_invariant 11 0 rfl _ (by decide)).trans (by decide +kernel)

theorem low_diff : ∀ l b : Byte, b < 0x80 → nationalByte b = false → (digitByte b && indianLanguage l) = false →
    (lowTable l)[b.toNat]? = tableBase[b.toNat]? := by
  have h : ∀ l : Byte, (languageReplacements l).all (fun r => nationalByte r.1 || (digitByte r.1 && indianLanguage l)) = true := by
    apply byte_all; decide +kernel
  intro l b hb hn hd
  unfold lowTable
  have := h l
  revert this
  generalize languageReplacements l = rs
  intro hrs
  have : ∀ t : List Str, (rs.foldl (fun t r => t.set r.1.toNat r.2) t)[b.toNat]? = t[b.toNat]? := by
    induction rs with
    | nil => intro t; rfl
    | cons r rs ih =>
      intro t
      simp only [List.all_cons, Bool.and_eq_true] at hrs
      rw [List.foldl_cons, ih hrs.2, List.getElem?_set_ne]
      intro he
      have he := UInt8.toNat_inj.1 he
      rw [he, hn, hd] at hrs
      simp at hrs
  exact this _

theorem decode_single (p l b : Byte) : (getCodepage p l).decode [b] = .ok (((lowTable l ++ codepageTable p)[b.toNat]?).getD []) := by
  rw [decode_ok, table_split]; simp

/-- C59. Selecting a character set only changes the national code points (and, for the Indian languages, the digits):
every other byte decodes as under U.S.A. -/
theorem C59_only_national (page lang b : Byte) (hn : nationalByte b = false)
    (hd : (digitByte b && indianLanguage lang) = false) :
    (getCodepage page lang).decode [b] = (getCodepage page 0).decode [b] := by
  rw [decode_single, decode_single]
  by_cases hlow : b.toNat < 128
  · rw [List.getElem?_append_left (by rw [low_length]; exact hlow), List.getElem?_append_left (by rw [low_length]; exact hlow)]
    rw [low_diff lang b (UInt8.lt_iff_toNat_lt.2 hlow) hn hd, low_diff 0 b (UInt8.lt_iff_toNat_lt.2 hlow) hn (by
      rw [show indianLanguage 0 = false from rfl, Bool.and_false])]
  · rw [List.getElem?_append_right (by rw [low_length]; omega), List.getElem?_append_right (by rw [low_length]; omega),
      low_length, low_length]

/-- C59. In particular the whole upper half (bytes 128-255) depends on the code page only, and code page changes never
touch the lower half. -/
theorem C59_halves (page page' lang lang' b : Byte) :
    (b ≥ 0x80 → (getCodepage page lang).decode [b] = (getCodepage page lang').decode [b]) ∧
    (b < 0x80 → (getCodepage page lang).decode [b] = (getCodepage page' lang).decode [b]) := by
  refine ⟨fun h => ?_, fun h => ?_⟩
  · have h := UInt8.le_iff_toNat_le.1 h
    rw [decode_single, decode_single, List.getElem?_append_right (by rw [low_length]; exact h),
      List.getElem?_append_right (by rw [low_length]; exact h), low_length, low_length]
  · have h := UInt8.lt_iff_toNat_lt.1 h
    rw [decode_single, decode_single, List.getElem?_append_left (by rw [low_length]; exact h),
      List.getElem?_append_left (by rw [low_length]; exact h)]

/-- C59. Character set numbers without a table behave as U.S.A. (0), code page numbers without one as PC437 (0). -/
theorem C59_fallback (page lang : Byte) :
    ((europeanLanguage lang || indianLanguage lang) = false → getCodepage page lang = getCodepage page 0) ∧
    (knownPage page = false → getCodepage page lang = getCodepage 0 lang) := by
  refine ⟨fun h => ?_, fun h => ?_⟩
  · unfold getCodepage
    rw [unknown_language lang h, show languageReplacements 0 = [] from rfl]
  · have : codepageTable page = codepageTable 0 := by
      have : ∀ p : Byte, (knownPage p || decide (codepageTable p = codepageTable 0)) = true := by
        apply byte_all; decide +kernel
      have := this page
      rw [h] at this
      simpa using this
    unfold getCodepage
    rw [this]

/-- C59. The first character set of each kind does replace: `#` is a pound sign in the U.K. set, and `5` is a
Devanagari digit in set 66. -/
theorem C59_replaces : (getCodepage 0 3).decode [0x23] = .ok ['£'] ∧ (getCodepage 0 66).decode [0x35] = .ok ['५'] ∧
    (getCodepage 13 1).decode [0x40] = .ok ['à'] := by
  decide +kernel

theorem pages_by_number (p : Byte) : codepageTable p = (pageNumbers.lookup p).getD table437 := by
  have : ∀ p : Byte, decide (codepageTable p = (pageNumbers.lookup p).getD table437) = true := by
    apply byte_all; decide +kernel
  exact of_decide_eq_true (this p)

theorem sets_by_number (l : Byte) : languageReplacements l = (setNumbers.lookup l).getD [] := by
  have : ∀ p : Byte, decide (languageReplacements p = (setNumbers.lookup p).getD []) = true := by
    apply byte_all; decide +kernel
  exact of_decide_eq_true (this l)

theorem low_lookup (l b : Byte) (hb : b.toNat < 128) :
    (lowTable l)[b.toNat]? = some ((((setNumbers.lookup l).getD []).lookup b).getD [Char.ofNat b.toNat]) := by
  have hnd : ∀ l : Byte, ((languageReplacements l).map (·.1)).Nodup := by
    have : ∀ l : Byte, decide ((languageReplacements l).map (·.1)).Nodup = true := by apply byte_all; decide +kernel
    intro l; exact of_decide_eq_true (this l)
  have hbase : tableBase[b.toNat]? = some [Char.ofNat b.toNat] := by
    have : ∀ b : Byte, (!decide (b.toNat < 128) || decide (tableBase[b.toNat]? = some [Char.ofNat b.toNat])) = true := by
      apply byte_all; decide +kernel
    have := this b
    rw [decide_eq_true hb] at this
    simpa using this
  have hlen : ∀ rs : List (Byte × Str), ∀ t : List Str, (rs.map (·.1)).Nodup → b.toNat < t.length →
      (rs.foldl (fun t r => t.set r.1.toNat r.2) t)[b.toNat]? = (match rs.lookup b with | some x => some x | none => t[b.toNat]?) := by
    intro rs
    induction rs with
    | nil => intro t _ _; rfl
    | cons r rs ih =>
      intro t hn ht
      rw [List.map_cons, List.nodup_cons] at hn
      rw [List.foldl_cons, ih _ hn.2 (by rw [List.length_set]; exact ht)]
      obtain ⟨k, v⟩ := r
      by_cases hk : b = k
      · subst hk
        have : rs.lookup b = none := by
          rw [List.lookup_eq_none_iff]
          intro q hq
          simp only [ne_eq, bne_iff_ne]
          intro he
          exact hn.1 (List.mem_map.2 ⟨q, hq, he.symm⟩)
        rw [this]
        simp [List.lookup, ht]
      · have hne : k.toNat ≠ b.toNat := fun h => hk (UInt8.toNat_inj.1 h).symm
        have hbe : (b == k) = false := by simpa using hk
        simp only [List.lookup, hbe]
        rw [List.getElem?_set_ne hne]
  unfold lowTable
  rw [← sets_by_number, hlen _ _ (hnd l) (by rw [show tableBase.length = 128 from by decide +kernel]; exact hb), hbase]
  cases (languageReplacements l).lookup b <;> rfl

/-- C58, C59. What every byte string says, for every code page and character set number: each byte is read on its own, in
the code page selected by its documented number or as ASCII with the replacements of the selected character set; with
code page 255 the bytes are UTF-8. -/
theorem C59_text (page set : Byte) (bs : List Byte) (hp : page ≠ 255) :
    (contextDecoder page set).decode bs = .ok (bs.flatMap (byteText page set)) := by
  have h1 : (contextDecoder page set).decode bs = (getCodepage page set).decode bs := by
    unfold contextDecoder Codepage.decode
    have : (page == 255) = false := by simpa using hp
    simp only [this]
    rfl
  rw [h1, decode_ok, table_split]
  congr 1
  rw [List.flatMap_def, List.flatMap_def]
  congr 1
  apply List.map_congr_left
  intro b _
  unfold byteText
  rw [List.getD_eq_getElem?_getD]
  split
  · next h =>
    have h := UInt8.le_iff_toNat_le.1 h
    change 128 ≤ b.toNat at h
    rw [List.getElem?_append_right (by rw [low_length]; exact h), low_length, ← pages_by_number, List.getD_eq_getElem?_getD]
  · next h =>
    have h : b.toNat < 128 := by
      rcases Nat.lt_or_ge b.toNat 128 with h' | h'
      · exact h'
      · exact absurd ((UInt8.le_iff_toNat_le (a := 128) (b := b)).2 h') h
    rw [List.getElem?_append_left (by rw [low_length]; exact h), low_lookup set b h]; rfl

/-- C58. Code page 255 reads UTF-8: every text comes out as it was encoded, whatever the character set. -/
theorem C58_utf8 (set : Byte) (t : Str) : (contextDecoder 255 set).decode t.bytes = .ok t := by
  unfold contextDecoder Codepage.decode
  simp [lossy_bytes, pure, Except.pure]

/-- C58, C59, concrete bytes: on PC850 with the German set. -/
example : [0x41, 0x5B, 0x9B].flatMap (byteText 2 2) = "AÄø".toList := by decide +kernel

end Thermal
