import Verif.Proofs.F32Color
import Verif.Proofs.Heights
import Verif.Props.Picture
/-
C87: floating-point numbers.  Every place where the program computes with `f32` has the value of the exact formula, for all values
that can occur there.
-/
namespace Thermal
open Spec

/-- C87. The arithmetic of the model is that of IEEE 754: every operation gives a `f32` that is as near to the exact result as
any, in the middle the even one.  (`units` counts steps of 2^-149, of which 2^149 make 1.) -/
theorem C87_arithmetic (a b : F32) :
    Rounded (a.units + b.units) 1 (F32.add a b).units ∧
    (b.units ≤ a.units → Rounded (a.units - b.units) 1 (F32.sub a b).units) ∧
    Rounded (a.units * b.units) (2 ^ 149) (F32.mul a b).units ∧
    (0 < b.units → Rounded (a.units * 2 ^ 149) b.units (F32.div a b).units) ∧
    (∀ n, Rounded (n * 2 ^ 149) 1 (F32.ofNat n).units) ∧
    ∀ p q, 0 < q → Rounded (p * 2 ^ 149) q (F32.lit p q).units := by
  refine ⟨F32.round_rounded (by decide), fun _ => F32.round_rounded (by decide), ?_, fun h => ?_, fun n => ?_, fun p q h => ?_⟩
  · rw [Nat.mul_comm]; exact F32.round_rounded (by decide)
  · rw [Nat.mul_comm]; exact F32.round_rounded h
  · rw [Nat.mul_comm]; exact F32.round_rounded (by decide)
  · rw [Nat.mul_comm]; exact F32.round_rounded h

/-- There is only one number that `Rounded` allows. -/
theorem C87_one_rounding {n d k k' : Nat} (h : Rounded n d k) (h' : Rounded n d k') : gap n d k = gap n d k' :=
  Nat.le_antisymm (h.nearest _ h'.isF32) (h'.nearest _ h.isF32)

/-- `C87_arithmetic`: 1/10 is not a `f32`; the nearest one is 13421773 * 2^-27.  2^24 + 1 is none either; it becomes 2^24. -/
example : (F32.lit 1 10).units = 13421773 * 2 ^ 122 ∧ F32.ofNat 16777217 = F32.ofNat 16777216 ∧ F32.ofNat 16777219 = F32.ofNat 16777220 := by
  decide +kernel

/-- C87. Blending a colour channel with coverage `a`: the exact mean, rounded to the nearest whole number. -/
theorem C87_blend (fg bg a : Byte) :
    (blendChan fg bg a).toNat = (2 * (fg.toNat * a.toNat + bg.toNat * (255 - a.toNat)) + 255) / 510 := by
  rw [blendChan_eq]
  have h1 := fg.toNat_lt
  have h2 := bg.toNat_lt
  have h3 := a.toNat_lt
  have hle : fg.toNat * a.toNat + bg.toNat * (255 - a.toNat) ≤ 255 * a.toNat + 255 * (255 - a.toNat) :=
    Nat.add_le_add (Nat.mul_le_mul_right _ (by omega)) (Nat.mul_le_mul_right _ (by omega))
  rw [UInt8.toNat_ofNat']
  exact Nat.mod_eq_of_lt (by omega)

/-- C87. Multiplying a colour channel: the exact product, rounded to the nearest whole number. -/
theorem C87_multiply (bg fg a : Byte) :
    (mulChan bg fg a).toNat = (2 * (bg.toNat * fg.toNat * a.toNat) + 65025) / 130050 := by
  rw [mulChan_eq]
  have h1 := fg.toNat_lt
  have h2 := bg.toNat_lt
  have h3 := a.toNat_lt
  have hle : bg.toNat * fg.toNat * a.toNat ≤ 255 * 255 * 255 := Nat.mul_le_mul (Nat.mul_le_mul (by omega) (by omega)) (by omega)
  rw [UInt8.toNat_ofNat']
  exact Nat.mod_eq_of_lt (by omega)

/-- `C87_blend` and `C87_multiply` give shades in between. -/
example : (blendChan 0 255 100).toNat = 155 ∧ (mulChan 200 100 128).toNat = 39 := by
  rw [C87_blend, C87_multiply]; decide

/-- The heights of characters: 24 or 17 dots, enlarged 1 to 8 times. -/
def CharHeight (h : Nat) : Prop := ∃ n, (1 ≤ n ∧ n ≤ 8) ∧ (h = 24 * n ∨ h = 17 * n)

theorem charHeight_iff {h : Nat} : CharHeight h ↔ h ∈ F32.heights := by
  constructor
  · rintro ⟨n, ⟨a, b⟩, e⟩
    have : n = 1 ∨ n = 2 ∨ n = 3 ∨ n = 4 ∨ n = 5 ∨ n = 6 ∨ n = 7 ∨ n = 8 := by omega
    rcases this with rfl | rfl | rfl | rfl | rfl | rfl | rfl | rfl <;> rcases e with rfl | rfl <;> decide
  · intro hm
    have : ∀ h ∈ F32.heights, (h % 24 = 0 ∧ 1 ≤ h / 24 ∧ h / 24 ≤ 8) ∨ (h % 17 = 0 ∧ 1 ≤ h / 17 ∧ h / 17 ≤ 8) := by decide
    rcases this h hm with ⟨a, b⟩ | ⟨a, b⟩
    · exact ⟨h / 24, b, .inl (by omega)⟩
    · exact ⟨h / 17, b, .inr (by omega)⟩

/-- C87. The characters of every line of text that is handed over have such a height, and the line has the height of one of them. -/
theorem C87_heights {ext : Ext} {bytes : List Byte} {outs : List Unit} {errs : List RenderError} {t : Renderer.Recording}
    (h : Renderer.render recorder ext (Renderer.new []) bytes = .ok (outs, errs, t)) (x : Context × Call) (hx : x ∈ t.child) :
    (∀ s ∈ x.2.spans, CharHeight s.characterHeight) ∧
      ∀ l off high j, x.2 = .text l off high j → (l = [] ∧ high = 0) ∨ ∃ s ∈ l, s.characterHeight = high := by
  have hw := render_outfit h x hx
  refine ⟨fun s hs => charHeight_iff.2 (hw.spans s hs).mem, ?_⟩
  intro l off high j e
  rw [e] at hw
  rw [hw.2]
  have key : ∀ (l : List TextSpan) (n : Nat), l.foldl (fun h s => max h s.characterHeight) n = n ∨
      ∃ s ∈ l, s.characterHeight = l.foldl (fun h s => max h s.characterHeight) n := by
    intro l
    induction l with
    | nil => intro n; exact .inl rfl
    | cons a l ih =>
      intro n
      rw [List.foldl_cons]
      rcases ih (max n a.characterHeight) with e | ⟨s, hs, e⟩
      · rw [e]
        rcases Nat.le_total n a.characterHeight with hle | hle
        · right; exact ⟨a, by simp, by rw [Nat.max_eq_right hle]⟩
        · left; exact Nat.max_eq_left hle
      · right; exact ⟨s, by simp [hs], e⟩
  cases l with
  | nil => exact .inl ⟨rfl, rfl⟩
  | cons a l =>
    right
    rcases key (a :: l) 0 with e | e
    · exact ⟨a, by simp, by
        have := (hw.1 a (by simp)).mem
        have h2 : a.characterHeight ≤ (a :: l).foldl (fun h s => max h s.characterHeight) 0 := by
          have mono : ∀ (l : List TextSpan) (n : Nat), n ≤ l.foldl (fun h s => max h s.characterHeight) n := by
            intro l
            induction l with
            | nil => intro n; exact Nat.le_refl n
            | cons b l ih => intro n; exact Nat.le_trans (Nat.le_max_left _ _) (ih _)
          exact Nat.le_trans (Nat.le_max_right 0 _) (mono l _)
        have h3 : ∀ h ∈ F32.heights, 0 < h := by decide
        have := h3 _ this
        rw [e] at h2
        omega⟩
    · exact e

/-- C87. The baseline of a character (where it is underlined) is 0.63504 of its height below its top, for fonts B and C 0.8 and 0.5 of
that, rounded down. -/
theorem C87_baseline (font : Font) {h : Nat} (hh : CharHeight h) : Canvas.baseline font h = baselineOf font h :=
  Canvas.baseline_eq (by have := F32.heights_le (charHeight_iff.1 hh); omega)

/-- C87. A character of height `h` in a line of height `g` is moved down so far that the baselines meet. -/
theorem C87_shift (font : Font) {g h : Nat} (hg : CharHeight g) (hle : h ≤ g) :
    Canvas.spanOffset font g h = .ok (baselineOf font (g - h)) :=
  Canvas.spanOffset_ok (by have := F32.heights_le (charHeight_iff.1 hg); omega) hle

/-- C87. The strike-through line is 2/5 of the height of the character below its top. -/
theorem C87_strike {h : Nat} (hh : CharHeight h) : Canvas.strikeTop h = h * 2 / 5 :=
  F32.strike_exact (by have := F32.heights_le (charHeight_iff.1 hh); omega)

/-- C87. Squeezing `n` dots into `m`, as enlarged characters are: dot `s` shows dot `s * n / m` rounded down, or, only where this is a whole
number, maybe the one before; it is one of the `n`. -/
theorem C87_fitted {s n m : Nat} (hs : s < m) (hn : m ≤ n) (h : n ≤ 192) :
    (fitted s n m = s * n / m ∨ (s * n % m = 0 ∧ fitted s n m + 1 = s * n / m)) ∧ fitted s n m < n :=
  ⟨F32.source_near hs hn h, F32.source_lt hs hn h⟩

/-- The exception of `C87_fitted` is real, in text three times as wide and seven times as high: dot 27 of the 36 of a cell should show dot
63 of the 84 of the glyph and shows dot 62. -/
theorem C87_fitted_off_by_one : fitted 27 (12 * 7) (12 * 3) = 62 ∧ 27 * (12 * 7) / (12 * 3) = 63 := by decide +kernel

/-- C87. Text stretched equally in both directions shows every dot of its glyphs. -/
theorem C87_fitted_exact {s b k : Nat} (hb : b = 9 ∨ b = 12 ∨ b = 17 ∨ b = 24) (hk : 1 ≤ k ∧ k ≤ 8) (hs : s < b * k) :
    fitted s (b * k) (b * k) = s := by
  have hle : b * k ≤ 24 * 8 := Nat.mul_le_mul (by omega) hk.2
  have := F32.source_near (n := b * k) (m := b * k) hs (Nat.le_refl _) (by omega)
  have e : s * (b * k) / (b * k) = s := Nat.mul_div_cancel _ (by omega)
  have k8 : k = 1 ∨ k = 2 ∨ k = 3 ∨ k = 4 ∨ k = 5 ∨ k = 6 ∨ k = 7 ∨ k = 8 := by omega
  have key : ∀ b ∈ [9, 12, 17, 24], ∀ k ∈ [1, 2, 3, 4, 5, 6, 7, 8], F32.div (F32.ofNat (b * k)) (F32.ofNat (b * k)) = F32.ofNat 1 := by decide +kernel
  have key2 : ∀ s : Fin 256, (F32.mul (F32.ofNat s.1) (F32.ofNat 1)).toU32 = s.1 := by decide +kernel
  unfold fitted
  rw [key b (by simp only [List.mem_cons, List.not_mem_nil, or_false]; exact hb) k (by simp only [List.mem_cons, List.not_mem_nil, or_false]; exact k8)]
  exact key2 ⟨s, by omega⟩

/-- C87. On a web page the pieces of a line are moved down by 0.78 of the difference of the heights, rounded down. -/
theorem C87_web {g h : Nat} (hg : CharHeight g) (hh : CharHeight h) : Html.baselineOffset g h = (g - h) * 78 / 100 :=
  F32.web_exact (charHeight_iff.1 hg) (charHeight_iff.1 hh)

/-- C87. Lines of 1 and 2 points in the resolutions there are. -/
theorem C87_points (c : Context) {n : Nat} (hd : c.graphics.dotsPerInch = 180 ∨ c.graphics.dotsPerInch = 203 ∨ c.graphics.dotsPerInch = 360) (hn : n = 1 ∨ n = 2) :
    c.pointsToPixels n = n * c.graphics.dotsPerInch / 96 :=
  F32.points_exact c (by simp only [List.mem_cons, List.not_mem_nil, or_false]; exact hd) hn

/-- C87. The paper: margins of a tenth of an inch, 3.2 inches wide, at 203 dots per inch. -/
theorem C87_paper :
    (F32.mul (F32.ofNat 203) (F32.lit 1 10)).toU32 = Context.new.graphics.paperArea.x ∧
    (F32.mul (F32.ofNat 203) (F32.lit 1 10)).toU32 = Context.new.graphics.paperArea.y ∧
    (F32.mul (F32.ofNat 203) (F32.lit 32 10)).toU32 = Context.new.graphics.paperArea.w :=
  ⟨F32.paper_exact.1, F32.paper_exact.1, F32.paper_exact.2⟩

/-- C87. Half of the width that is left over, for images up to 16 million dots wide. -/
theorem C87_half {n : Nat} (h : n < 16777216) : (F32.div (F32.ofNat n) (F32.ofNat 2)).toU32 = n / 2 := F32.half_exact h

/-- C87. The error correction level of PDF417 from a number of codewords and a percentage. -/
theorem C87_pdf417 (level : Nat) {count n : Nat} (hc : count ≤ 65535) (hn : n ≤ 255) :
    pdf417Level count n level = if count * n > 40000 then 8 else 7 := F32.pdf417_exact level hc hn

/-- `C87_baseline` … `C87_web` for 24 and 72 dots. -/
example : CharHeight 24 ∧ CharHeight 72 ∧ baselineOf .A 24 = 15 ∧ baselineOf .A (72 - 24) = 30 ∧ 72 * 2 / 5 = 28 ∧ (72 - 24) * 78 / 100 = 37 ∧
    Canvas.baseline .A 24 = 15 ∧ Canvas.strikeTop 72 = 28 ∧ Html.baselineOffset 72 24 = 37 := by
  refine ⟨⟨1, by omega, by omega⟩, ⟨3, by omega, by omega⟩, ?_⟩
  rw [C87_baseline .A ⟨1, by omega, by omega⟩, C87_strike ⟨3, by omega, by omega⟩, C87_web ⟨3, by omega, by omega⟩ ⟨1, by omega, by omega⟩]
  decide

end Thermal
