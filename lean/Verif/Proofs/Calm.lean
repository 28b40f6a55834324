import Verif.Proofs.CalmLayout
import Verif.Proofs.Outfit
import Verif.Props.Decoder
import Verif.Props.Graphics
import Verif.Spec.Tame
/-
Applying commands with tame parameters does not panic.
-/
namespace Thermal

/-- Graphics that can be printed. -/
def CalmGraphic : GraphicsCommand → Prop
  | .error _ => True
  | .image i => i.pixels.length = i.w * i.h ∧ i.w ≤ 131072 ∧ i.h ≤ 131072
  | _ => False

/-- A 2D code that can be printed. -/
structure CalmCode (q : Code2D) : Prop where
  pos : 0 < q.width
  width : q.width ≤ 177
  points : q.points.length ≤ q.width * q.width
  pointWidth : q.pointWidth ≤ 255
  pointHeight : q.pointHeight ≤ 255

/-- Settings other than the pens. -/
structure Poise (n : Bool) (c : Context) : Prop where
  default : c.default = some defaultSettings
  cell : (c.text.characterWidth = 12 ∧ c.text.characterHeight = 24) ∨ (c.text.characterWidth = 9 ∧ c.text.characterHeight = 17)
  widthMult : c.text.widthMult.toNat ∈ sizes
  heightMult : c.text.heightMult.toNat ∈ sizes
  narrow : n = true → c.text.widthMult.toNat ≤ 2
  right : c.text.justify = .right → n = true
  hMotion : c.graphics.hMotionUnit ≠ 0
  vMotion : c.graphics.vMotionUnit ≠ 0
  dpi : c.graphics.dotsPerInch ∈ [180, 203, 360]
  decoder : ∃ p l u, c.text.decoder = { getCodepage p l with useUtf8 := u }
  symbol : ∀ q, c.code2d.symbolStorage = some q → CalmCode q
  stored : ∀ p ∈ c.graphics.storedGraphics, CalmGraphic p.2
  buffer : ∀ g ∈ c.graphics.bufferGraphics, CalmGraphic g
  logical : c.pageMode.logicalArea.x ≤ 65535 ∧ c.pageMode.logicalArea.y ≤ 65535 ∧ c.pageMode.logicalArea.w ≤ 65535 ∧ c.pageMode.logicalArea.h ≤ 65535
  page : c.pageMode.pageArea.x ≤ 131072 ∧ c.pageMode.pageArea.y ≤ 131072 ∧ c.pageMode.pageArea.w ≤ 131072 ∧ c.pageMode.pageArea.h ≤ 131072
  area : c.pageMode.renderArea.w ≤ 131072 ∧ c.pageMode.renderArea.h ≤ 131072

/-- A context in which commands can be applied. -/
structure Calm (n : Bool) (b : Nat) (c : Context) : Prop where
  lane : Lane n b c
  poise : Poise n c
  low : 327680 ≤ b

namespace Poise

theorem of_only {n : Bool} {fs : List Setting} {c c' : Context} (h : OnlyChanges fs c c')
    (hf : ∀ f ∈ [Setting.defaults, .characterWidth, .characterHeight, .widthMult, .heightMult, .justify, .hMotionUnit, .vMotionUnit, .dotsPerInch,
      .decoder, .symbolStorage, .storedGraphics, .bufferGraphics, .logicalArea, .pageArea, .pageW, .pageH], f ∉ fs) (hc : Poise n c) :
    Poise n c' := by
  have e1 : c'.default = c.default := h _ (hf .defaults (by decide))
  have e2 : c'.text.characterWidth = c.text.characterWidth := h _ (hf .characterWidth (by decide))
  have e3 : c'.text.characterHeight = c.text.characterHeight := h _ (hf .characterHeight (by decide))
  have e4 : c'.text.widthMult = c.text.widthMult := h _ (hf .widthMult (by decide))
  have e5 : c'.text.heightMult = c.text.heightMult := h _ (hf .heightMult (by decide))
  have e6 : c'.text.justify = c.text.justify := h _ (hf .justify (by decide))
  have e7 : c'.graphics.hMotionUnit = c.graphics.hMotionUnit := h _ (hf .hMotionUnit (by decide))
  have e8 : c'.graphics.vMotionUnit = c.graphics.vMotionUnit := h _ (hf .vMotionUnit (by decide))
  have e9 : c'.graphics.dotsPerInch = c.graphics.dotsPerInch := h _ (hf .dotsPerInch (by decide))
  have e10 : c'.text.decoder = c.text.decoder := h _ (hf .decoder (by decide))
  have e11 : c'.code2d.symbolStorage = c.code2d.symbolStorage := h _ (hf .symbolStorage (by decide))
  have e12 : c'.graphics.storedGraphics = c.graphics.storedGraphics := h _ (hf .storedGraphics (by decide))
  have e13 : c'.graphics.bufferGraphics = c.graphics.bufferGraphics := h _ (hf .bufferGraphics (by decide))
  have e14 : c'.pageMode.logicalArea = c.pageMode.logicalArea := h _ (hf .logicalArea (by decide))
  have e15 : c'.pageMode.pageArea = c.pageMode.pageArea := h _ (hf .pageArea (by decide))
  have e16 : c'.pageMode.renderArea.w = c.pageMode.renderArea.w := h _ (hf .pageW (by decide))
  have e17 : c'.pageMode.renderArea.h = c.pageMode.renderArea.h := h _ (hf .pageH (by decide))
  exact ⟨e1 ▸ hc.default, e2 ▸ e3 ▸ hc.cell, e4 ▸ hc.widthMult, e5 ▸ hc.heightMult, e4 ▸ hc.narrow, e6 ▸ hc.right, e7 ▸ hc.hMotion, e8 ▸ hc.vMotion,
    e9 ▸ hc.dpi, e10 ▸ hc.decoder, e11 ▸ hc.symbol, e12 ▸ hc.stored, e13 ▸ hc.buffer, e14 ▸ hc.logical, e15 ▸ hc.page, e16 ▸ e17 ▸ hc.area⟩

theorem pen {n : Bool} {c c' : Context} (h : PenDown c c') (hc : Poise n c) : Poise n c' := of_only h.only (by decide) hc

theorem start (n : Bool) : Poise n Context.new := by
  refine ⟨rfl, .inl ⟨rfl, rfl⟩, ?_, ?_, ?_, ?_, ?_, ?_, ?_, ⟨0, 0, false, rfl⟩, ?_, ?_, ?_, ?_, ?_, ?_⟩
  · decide
  · decide
  · intro _; decide
  · intro h; exact absurd h (by decide)
  · decide
  · decide
  · decide
  · intro q h; exact absurd h (by simp [Context.new, defaultSettings])
  · intro p hp; exact absurd hp List.not_mem_nil
  · intro p hp; exact absurd hp List.not_mem_nil
  · decide
  · decide
  · decide

/-- The size of a character. -/
theorem span {n : Bool} {c : Context} (hc : Poise n c) (s : Str) : CalmSpan n (TextSpan.new s c) := by
  have hw : 1 ≤ c.text.widthMult.toNat ∧ c.text.widthMult.toNat ≤ 8 := by
    have := hc.widthMult; simp only [sizes, List.mem_cons, List.not_mem_nil, or_false] at this; omega
  have hh : c.text.heightMult.toNat ≤ 8 := by
    have := hc.heightMult; simp only [sizes, List.mem_cons, List.not_mem_nil, or_false] at this; omega
  have hn := hc.narrow
  have hj := hc.right
  have : (c.text.characterWidth.toNat = 12 ∧ c.text.characterHeight.toNat = 24) ∨ (c.text.characterWidth.toNat = 9 ∧ c.text.characterHeight.toNat = 17) := by
    rcases hc.cell with ⟨a, b⟩ | ⟨a, b⟩ <;> rw [a, b]
    · exact .inl (by decide)
    · exact .inr (by decide)
  refine ⟨?_, ?_, ?_, ?_, ?_⟩
  rotate_right 1
  · have hp : ∀ k ≤ 2, c.pointsToPixels k ≤ 255 := by
      intro k hk
      unfold Context.pointsToPixels
      have hd := hc.dpi
      simp only [List.mem_cons, List.not_mem_nil, or_false] at hd
      rcases hd with hd | hd | hd <;> rw [hd] <;> (have : k = 0 ∨ k = 1 ∨ k = 2 := by omega) <;> rcases this with rfl | rfl | rfl <;> decide
    show (match c.text.strikethrough with
      | .on => c.pointsToPixels 1
      | .double => c.pointsToPixels 2
      | .off => 0) ≤ 255
    cases c.text.strikethrough
    · exact Nat.zero_le _
    · exact hp 1 (by decide)
    · exact hp 2 (by decide)
  · show 0 < c.text.characterWidth.toNat * c.text.widthMult.toNat
    exact Nat.mul_pos (by omega) (by omega)
  · show c.text.characterWidth.toNat * c.text.widthMult.toNat ≤ 12 * 8
    exact Nat.mul_le_mul (by omega) (by omega)
  · show c.text.characterHeight.toNat * c.text.heightMult.toNat ≤ 24 * 8
    exact Nat.mul_le_mul (by omega) (by omega)
  · intro hr
    have h1 := hj hr
    refine ⟨h1, ?_⟩
    show c.text.characterWidth.toNat * c.text.widthMult.toNat ≤ 12 * 2
    exact Nat.mul_le_mul (by omega) (hn h1)

end Poise

namespace Lane

theorem of_only {n : Bool} {b : Nat} {fs : List Setting} {c c' : Context} (h : OnlyChanges fs c c')
    (hf : ∀ f ∈ [Setting.pageEnabled, .printWidth, .pageW, .pageArea, .tabs, .paperX, .paperY, .pageX, .pageY], f ∉ fs) (hc : Lane n b c) :
    Lane n b c' := by
  have e1 : c'.pageMode.enabled = c.pageMode.enabled := h _ (hf .pageEnabled (by decide))
  have e2 : c'.graphics.renderArea.w = c.graphics.renderArea.w := h _ (hf .printWidth (by decide))
  have e3 : c'.pageMode.renderArea.w = c.pageMode.renderArea.w := h _ (hf .pageW (by decide))
  have e4 : c'.pageMode.pageArea = c.pageMode.pageArea := h _ (hf .pageArea (by decide))
  have e5 : c'.text.tabs = c.text.tabs := h _ (hf .tabs (by decide))
  have e6 : c'.graphics.renderArea.x = c.graphics.renderArea.x := h _ (hf .paperX (by decide))
  have e7 : c'.graphics.renderArea.y = c.graphics.renderArea.y := h _ (hf .paperY (by decide))
  have e8 : c'.pageMode.renderArea.x = c.pageMode.renderArea.x := h _ (hf .pageX (by decide))
  have e9 : c'.pageMode.renderArea.y = c.pageMode.renderArea.y := h _ (hf .pageY (by decide))
  exact ⟨e1 ▸ hc.mode, e2 ▸ hc.width, e3 ▸ hc.pageWidth, e4 ▸ hc.pageBase, e5 ▸ hc.tabs, e6 ▸ hc.x, e7 ▸ hc.y, e8 ▸ hc.pageX, e9 ▸ hc.pageY⟩

theorem start (n : Bool) : Lane n 327680 Context.new := by
  refine ⟨fun _ => rfl, rfl, ?_, ?_, rfl, ?_, ?_, ?_, ?_⟩ <;> decide

end Lane

/-- The settings that matter. -/
def calmSettings : List Setting :=
  [.defaults, .characterWidth, .characterHeight, .widthMult, .heightMult, .justify, .hMotionUnit, .vMotionUnit, .dotsPerInch,
   .decoder, .symbolStorage, .storedGraphics, .bufferGraphics, .logicalArea, .pageArea, .pageW, .pageH,
   .pageEnabled, .printWidth, .tabs, .paperX, .paperY, .pageX, .pageY]

namespace Calm
variable {n : Bool} {b : Nat} {c : Context} {ext : Ext}

theorem start (n : Bool) : Calm n 327680 Context.new := ⟨Lane.start n, Poise.start n, Nat.le_refl _⟩

theorem mono {b'} (h : Calm n b c) (hb : b ≤ b') : Calm n b' c := ⟨h.lane.mono hb, h.poise, Nat.le_trans h.low hb⟩

theorem of_only {fs : List Setting} {c' : Context} (h : OnlyChanges fs c c') (hf : ∀ f ∈ calmSettings, f ∉ fs) (hc : Calm n b c) : Calm n b c' := by
  refine ⟨hc.lane.of_only h (fun f hm => hf f ?_), hc.poise.of_only h (fun f hm => hf f ?_), hc.low⟩
  · revert hm; revert f; decide
  · revert hm; revert f; decide

theorem reset (h : Calm n b c) : Calm n b c.reset := by
  have hb := h.low
  simp only [Context.reset, h.poise.default]
  refine ⟨⟨h.lane.mode, rfl, h.lane.pageWidth, h.lane.pageBase, rfl, ?_, ?_, h.lane.pageX, h.lane.pageY⟩, ?_, h.low⟩
  · exact (by decide : defaultSettings.graphics.renderArea.x ≤ 1048576)
  · exact Nat.le_trans (by decide : defaultSettings.graphics.renderArea.y ≤ 327680) hb
  · have s := Poise.start n
    exact ⟨rfl, s.cell, s.widthMult, s.heightMult, s.narrow, s.right, s.hMotion, s.vMotion, s.dpi, s.decoder, s.symbol, s.stored, s.buffer,
      h.poise.logical, h.poise.page, h.poise.area⟩

theorem motion_toNat {m : Byte} (h : m ≠ 0) : m.toNat ≠ 0 := by
  intro h0; exact h (UInt8.toNat_inj.1 h0)

theorem pos_le (data : List Byte) : getPos data ≤ 65535 := by
  unfold getPos
  have := (getOr data 0 0).toNat_lt
  have := (getOr data 1 0).toNat_lt
  omega

theorem u16_le (data : List Byte) (i : Nat) : parseU16 data i ≤ 65535 := by
  unfold parseU16
  dsimp only
  have h1 := (getOr data i 0).toNat_lt
  have h2 := (getOr data (i + 1) 0).toNat_lt
  have h3 : (getOr data (i + 1) 0).toNat <<< 8 < 2 ^ 16 := by rw [Nat.shiftLeft_eq]; omega
  have := Nat.or_lt_two_pow (n := 16) h3 (by omega : (getOr data i 0).toNat < 2 ^ 16)
  omega

theorem horizontal (h : Calm n b c) (data : List Byte) : ∃ c', c.setXAbsolute (getPos data) = .ok c' ∧ Calm n b c' := by
  have hp := pos_le data
  have hm := motion_toNat h.poise.hMotion
  have hd : divU (getPos data) c.graphics.hMotionUnit.toNat = .ok (getPos data / c.graphics.hMotionUnit.toNat) := divU_ok.2 ⟨hm, rfl⟩
  have hq : getPos data / c.graphics.hMotionUnit.toNat ≤ 65535 := Nat.le_trans (Nat.div_le_self _ _) hp
  generalize getPos data / c.graphics.hMotionUnit.toNat = v at hd hq
  obtain ⟨p1, p2, p3, p4⟩ := h.poise.page
  obtain ⟨a1, a2⟩ := h.poise.area
  have low := h.low
  have fin : ∀ {c'}, c.setXAbsolute (getPos data) = .ok c' → Lane n b c' → ∃ c', c.setXAbsolute (getPos data) = .ok c' ∧ Calm n b c' := by
    intro c' e l
    exact ⟨c', e, l, h.poise.of_only (setXAbsolute_only e) (by decide), h.low⟩
  have lane : ∀ {x y}, x ≤ 1048576 → y ≤ b →
      Lane n b { c with pageMode := { c.pageMode with renderArea := { c.pageMode.renderArea with x := x, y := y } } } :=
    fun hx hy => ⟨h.lane.mode, h.lane.width, h.lane.pageWidth, h.lane.pageBase, h.lane.tabs, h.lane.x, h.lane.y, hx, hy⟩
  have hx := h.lane.pageX
  have hy := h.lane.pageY
  by_cases he : c.pageMode.enabled = true
  · cases hdir : c.pageMode.direction
    · have e : addU32 c.pageMode.pageArea.x v = .ok (c.pageMode.pageArea.x + v) := addU32_ok.2 ⟨by simp only [U32]; omega, rfl⟩
      refine fin ?_ (lane (x := c.pageMode.pageArea.x + v) (y := c.pageMode.renderArea.y) (by omega) hy)
      simp only [Context.setXAbsolute, hd, bind, Except.bind, he, if_true, PageModeContext.setXAbsolute, hdir, e]; rfl
    · have e : addU32 c.pageMode.pageArea.x c.pageMode.renderArea.w = .ok (c.pageMode.pageArea.x + c.pageMode.renderArea.w) :=
        addU32_ok.2 ⟨by simp only [U32]; omega, rfl⟩
      refine fin ?_ (lane (x := c.pageMode.pageArea.x + c.pageMode.renderArea.w - v) (y := c.pageMode.renderArea.y) (by omega) hy)
      simp only [Context.setXAbsolute, hd, bind, Except.bind, he, if_true, PageModeContext.setXAbsolute, hdir, e]; rfl
    · refine fin ?_ (lane (x := c.pageMode.renderArea.x) (y := c.pageMode.renderArea.h - v) hx (by omega))
      simp only [Context.setXAbsolute, hd, bind, Except.bind, he, if_true, PageModeContext.setXAbsolute, hdir]; rfl
    · have e : addU32 c.pageMode.pageArea.y v = .ok (c.pageMode.pageArea.y + v) := addU32_ok.2 ⟨by simp only [U32]; omega, rfl⟩
      refine fin ?_ (lane (x := c.pageMode.renderArea.x) (y := c.pageMode.pageArea.y + v) hx (by omega))
      simp only [Context.setXAbsolute, hd, bind, Except.bind, he, if_true, PageModeContext.setXAbsolute, hdir, e]; rfl
  · refine fin ?_ (h.lane.putX (x := v) (by omega))
    simp only [Context.setXAbsolute, hd, bind, Except.bind, he]; rfl

theorem vertical (h : Calm n b c) (he : c.pageMode.enabled = true) (data : List Byte) : ∃ c', c.setYAbsolute (getPos data) = .ok c' ∧ Calm n b c' := by
  have hp := pos_le data
  have hm := motion_toNat h.poise.vMotion
  have hd : divU (getPos data) c.graphics.vMotionUnit.toNat = .ok (getPos data / c.graphics.vMotionUnit.toNat) := divU_ok.2 ⟨hm, rfl⟩
  have hq : getPos data / c.graphics.vMotionUnit.toNat ≤ 65535 := Nat.le_trans (Nat.div_le_self _ _) hp
  generalize getPos data / c.graphics.vMotionUnit.toNat = v at hd hq
  obtain ⟨p1, p2, p3, p4⟩ := h.poise.page
  obtain ⟨a1, a2⟩ := h.poise.area
  have low := h.low
  have fin : ∀ {c'}, c.setYAbsolute (getPos data) = .ok c' → Lane n b c' → ∃ c', c.setYAbsolute (getPos data) = .ok c' ∧ Calm n b c' := by
    intro c' e l
    exact ⟨c', e, l, h.poise.of_only (setYAbsolute_only he e) (by decide), h.low⟩
  have lane : ∀ {x y}, x ≤ 1048576 → y ≤ b →
      Lane n b { c with pageMode := { c.pageMode with renderArea := { c.pageMode.renderArea with x := x, y := y } } } :=
    fun hx hy => ⟨h.lane.mode, h.lane.width, h.lane.pageWidth, h.lane.pageBase, h.lane.tabs, h.lane.x, h.lane.y, hx, hy⟩
  have hx := h.lane.pageX
  have hy := h.lane.pageY
  cases hdir : c.pageMode.direction
  · have e : addU32 c.pageMode.pageArea.y v = .ok (c.pageMode.pageArea.y + v) := addU32_ok.2 ⟨by simp only [U32]; omega, rfl⟩
    refine fin ?_ (lane (x := c.pageMode.renderArea.x) (y := c.pageMode.pageArea.y + v) hx (by omega))
    simp only [Context.setYAbsolute, hd, bind, Except.bind, he, if_true, PageModeContext.setYAbsolute, hdir, e]; rfl
  · have e : addU32 c.pageMode.pageArea.y (c.pageMode.renderArea.h - v) = .ok (c.pageMode.pageArea.y + (c.pageMode.renderArea.h - v)) :=
      addU32_ok.2 ⟨by simp only [U32]; omega, rfl⟩
    refine fin ?_ (lane (x := c.pageMode.renderArea.x) (y := c.pageMode.pageArea.y + (c.pageMode.renderArea.h - v)) hx (by omega))
    simp only [Context.setYAbsolute, hd, bind, Except.bind, he, if_true, PageModeContext.setYAbsolute, hdir, e]; rfl
  · have e : addU32 c.pageMode.pageArea.x v = .ok (c.pageMode.pageArea.x + v) := addU32_ok.2 ⟨by simp only [U32]; omega, rfl⟩
    refine fin ?_ (lane (x := c.pageMode.pageArea.x + v) (y := c.pageMode.renderArea.y) (by omega) hy)
    simp only [Context.setYAbsolute, hd, bind, Except.bind, he, if_true, PageModeContext.setYAbsolute, hdir, e]; rfl
  · have e : addU32 c.pageMode.pageArea.x (c.pageMode.renderArea.w - v) = .ok (c.pageMode.pageArea.x + (c.pageMode.renderArea.w - v)) :=
      addU32_ok.2 ⟨by simp only [U32]; omega, rfl⟩
    refine fin ?_ (lane (x := c.pageMode.pageArea.x + (c.pageMode.renderArea.w - v)) (y := c.pageMode.renderArea.y) (by omega) hy)
    simp only [Context.setYAbsolute, hd, bind, Except.bind, he, if_true, PageModeContext.setYAbsolute, hdir, e]; rfl

theorem relative (h : Calm n b c) (he : c.pageMode.enabled = true) (data : List Byte) (hb : b + 32768 < 2147483648) :
    ∃ c', c.offsetYRelative (getPosI16 data) = .ok c' ∧ Calm n (b + 32768) c' := by
  have hp := pos_le data
  have hv := h.lane.yle
  have h1 : -32768 ≤ getPosI16 data ∧ getPosI16 data ≤ 32767 := by unfold getPosI16; split <;> omega
  have h2 : divI16 (getPosI16 data) c.graphics.vMotionUnit = .ok ((getPosI16 data).tdiv c.graphics.vMotionUnit.toNat) := by
    unfold divI16; rw [if_neg h.poise.vMotion]
  have h3 : -32768 ≤ (getPosI16 data).tdiv c.graphics.vMotionUnit.toNat ∧ (getPosI16 data).tdiv c.graphics.vMotionUnit.toNat ≤ 32768 := by
    have := Int.natAbs_tdiv_le_natAbs (getPosI16 data) c.graphics.vMotionUnit.toNat
    omega
  generalize (getPosI16 data).tdiv c.graphics.vMotionUnit.toNat = d at h2 h3
  have h4 : addClamp c.getY d = .ok ((c.getY : Int) + d).toNat := by
    unfold addClamp
    dsimp only
    rw [if_pos (by omega : c.getY < 2147483648), if_pos (by omega)]
  have e : c.offsetYRelative (getPosI16 data) = .ok (c.putY ((c.getY : Int) + d).toNat) := by
    simp only [Context.offsetYRelative, h2, h4, bind, Except.bind]; rfl
  refine ⟨_, e, h.lane.putY (by omega) (by omega), ?_, Nat.le_trans h.low (by omega)⟩
  refine h.poise.of_only (fs := [.paperY, .pageY]) ?_ (by decide)
  unfold Context.putY; split <;> touch

theorem area (h : Calm n b c) (data : List Byte) : ∃ c', c.setPageArea (calculatePageArea data) = .ok c' ∧ Calm n b c' := by
  have hm := motion_toNat h.poise.hMotion
  have vm := motion_toNat h.poise.vMotion
  have d : ∀ {m : Nat} (_ : m ≠ 0) (i : Nat), divU (parseU16 data i) m = .ok (parseU16 data i / m) ∧ parseU16 data i / m ≤ 65535 :=
    fun hm i => ⟨divU_ok.2 ⟨hm, rfl⟩, Nat.le_trans (Nat.div_le_self _ _) (u16_le data i)⟩
  obtain ⟨e1, l1⟩ := d hm 0
  obtain ⟨e2, l2⟩ := d vm 2
  obtain ⟨e3, l3⟩ := d hm 4
  obtain ⟨e4, l4⟩ := d vm 6
  generalize parseU16 data 0 / _ = v1 at e1 l1
  generalize parseU16 data 2 / _ = v2 at e2 l2
  generalize parseU16 data 4 / _ = v3 at e3 l3
  generalize parseU16 data 6 / _ = v4 at e4 l4
  refine ⟨{ c with pageMode := { c.pageMode with logicalArea := ⟨v1, v2, v3, v4⟩ } }, ?_, ⟨?_, ?_, h.low⟩⟩
  · simp only [Context.setPageArea, calculatePageArea, e1, e2, e3, e4, bind, Except.bind]; rfl
  · exact h.lane.of_only (fs := [.logicalArea]) (by touch) (by decide)
  · exact ⟨h.poise.default, h.poise.cell, h.poise.widthMult, h.poise.heightMult, h.poise.narrow, h.poise.right, h.poise.hMotion, h.poise.vMotion,
      h.poise.dpi, h.poise.decoder, h.poise.symbol, h.poise.stored, h.poise.buffer, ⟨l1, l2, l3, l4⟩, h.poise.page, h.poise.area⟩

theorem motion {d : Nat} (hd : d ∈ [180, 203, 360]) : ∀ m : Byte, m ≠ 0 → m.toNat ≤ 180 → UInt8.ofNat (d / m.toNat) ≠ 0 := by
  simp only [List.mem_cons, List.not_mem_nil, or_false] at hd
  rcases hd with rfl | rfl | rfl
  · exact byte_all (by decide +kernel)
  · exact byte_all (by decide +kernel)
  · exact byte_all (by decide +kernel)

theorem size_cell (f : Font) : (f.toSize.1 = 12 ∧ f.toSize.2 = 24) ∨ (f.toSize.1 = 9 ∧ f.toSize.2 = 17) := by cases f <;> decide

end Calm
end Thermal
