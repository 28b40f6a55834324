import Verif.Proofs.CalmApply
import Verif.Spec.Trace
/-
Device commands with tame parameters do not panic.
-/
namespace Thermal

/-- An output renderer whose methods return. -/
structure Total {σ Out : Type} (R : OutputRenderer σ Out) : Prop where
  beginRender : ∀ c s, ∃ s', R.beginRender c s = .ok s'
  pageBegin : ∀ c s, ∃ s', R.pageBegin c s = .ok s'
  pageAreaChanged : ∀ c t w h s, ∃ s', R.pageAreaChanged c t w h s = .ok s'
  pageEnd : ∀ c s, ∃ s', R.pageEnd c s = .ok s'
  renderPage : ∀ c s, ∃ s', R.renderPage c s = .ok s'
  renderGraphics : ∀ c g s, ∃ s', R.renderGraphics c g s = .ok s'
  renderImage : ∀ c i s, ∃ s', R.renderImage c i s = .ok s'
  renderText : ∀ c l x h j s, ∃ s', R.renderText c l x h j s = .ok s'
  deviceCommand : ∀ c d s, ∃ s', R.deviceCommand c d s = .ok s'
  endRender : ∀ c s, ∃ r, R.endRender c s = .ok r

/-- Calls of a calm job: the pens are above `B`; what is handed over starts above the pen and has a moderate size. -/
def Near (n : Bool) (B : Nat) (c : Context) (x : Call) : Prop :=
  match x with
  | .text l o m _ => Lane n B c ∧ CalmLine n l ∧ (∃ y, LineAt l y ∧ y ≤ c.getY) ∧ o ≤ 131072 ∧ m = lineHeight l
  | .graphics gs => c.getY ≤ B ∧ ∀ g ∈ gs, g.x + g.w < U32 ∧ g.w ≤ 255 ∧ g.h ≤ 255 ∧ g.y ≤ c.getY
  | .image i => Lane n B c ∧ i.pixels.length = i.w * i.h ∧ i.w ≤ 1048576 ∧ i.h ≤ 131072 ∧ i.x = c.getX ∧ i.y = c.getY
  | .pageAreaChanged _ w h => Lane n B c ∧ w ≤ 131072 ∧ h ≤ 131072
  | _ => Lane n B c

/-- An output renderer whose methods return for the calls in `P`. -/
structure TotalOn {σ Out : Type} (P : Context → Call → Prop) (R : OutputRenderer σ Out) : Prop where
  beginRender : ∀ c s, P c .beginRender → ∃ s', R.beginRender c s = .ok s'
  pageBegin : ∀ c s, P c .pageBegin → ∃ s', R.pageBegin c s = .ok s'
  pageAreaChanged : ∀ c t w h s, P c (.pageAreaChanged t w h) → ∃ s', R.pageAreaChanged c t w h s = .ok s'
  pageEnd : ∀ c s, P c .pageEnd → ∃ s', R.pageEnd c s = .ok s'
  renderPage : ∀ c s, P c .renderPage → ∃ s', R.renderPage c s = .ok s'
  renderGraphics : ∀ c g s, P c (.graphics g) → ∃ s', R.renderGraphics c g s = .ok s'
  renderImage : ∀ c i s, P c (.image i) → ∃ s', R.renderImage c i s = .ok s'
  renderText : ∀ c l x h j s, P c (.text l x h j) → ∃ s', R.renderText c l x h j s = .ok s'
  deviceCommand : ∀ c d s, P c (.device d) → ∃ s', R.deviceCommand c d s = .ok s'
  endRender : ∀ c s, P c .endRender → ∃ r, R.endRender c s = .ok r

theorem Total.on {σ Out : Type} {R : OutputRenderer σ Out} (h : Total R) (P : Context → Call → Prop) : TotalOn P R where
  beginRender c s _ := h.beginRender c s
  pageBegin c s _ := h.pageBegin c s
  pageAreaChanged c t w k s _ := h.pageAreaChanged c t w k s
  pageEnd c s _ := h.pageEnd c s
  renderPage c s _ := h.renderPage c s
  renderGraphics c g s _ := h.renderGraphics c g s
  renderImage c i s _ := h.renderImage c i s
  renderText c l x k j s _ := h.renderText c l x k j s
  deviceCommand c d s _ := h.deviceCommand c d s
  endRender c s _ := h.endRender c s

/-- Device commands that can be carried out. -/
def DeviceOk (n : Bool) : DeviceCommand → Prop
  | .setTextWidth w => w.toNat ∈ sizes ∧ (n = true → w.toNat ≤ 2)
  | .setTextHeight h => h.toNat ∈ sizes
  | .justify j => j = .right → n = true
  | .feed k | .feedLine k => 0 ≤ k ∧ k ≤ 255
  | .beginPageMode => n = false
  | _ => True

/-- How far a device command moves the pen down, at most. -/
def deviceReach : DeviceCommand → Nat
  | .beginPrint | .fullCut | .partialCut => 510
  | .feed k => k.toNat
  | .feedLine k => 255 * k.toNat
  | .printPageMode => 131072
  | _ => 0

namespace Calm
variable {n : Bool} {b : Nat} {c : Context} {ext : Ext}

theorem offsetY (h : Calm n b c) {y : Nat} (hb : b + y < U32) : ∃ c', c.offsetY y = .ok c' ∧ Calm n (b + y) c' := by
  obtain ⟨c', e1, e2, _⟩ := h.lane.offsetY hb
  refine ⟨c', e1, e2, ?_, Nat.le_trans h.low (by omega)⟩
  obtain ⟨_, rfl⟩ := offsetY_ok.1 e1
  refine h.poise.of_only (fs := [.paperY, .pageY]) ?_ (by decide)
  unfold Context.putY; split <;> touch

theorem putX (h : Calm n b c) {x : Nat} (hx : x ≤ 1048576) : Calm n b (c.putX x) := by
  refine ⟨h.lane.putX hx, ?_, h.low⟩
  refine h.poise.of_only (fs := [.paperX, .pageX]) ?_ (by decide)
  unfold Context.putX; split <;> touch

theorem resetX (h : Calm n b c) : Calm n b c.resetX := h.putX (by have := h.lane.baseX; omega)

theorem setX (h : Calm n b c) {x : Nat} (hx : x ≤ 917504) : ∃ c', c.setX x = .ok c' ∧ Calm n b c' := by
  obtain ⟨c', e1, e2, _⟩ := h.lane.setX hx
  refine ⟨c', e1, e2, ?_, h.low⟩
  revert e1
  unfold Context.setX
  split
  · intro e1
    simp only [PageModeContext.setX, bind_ok, pure_ok] at e1
    obtain ⟨p, ⟨v, _, rfl⟩, rfl⟩ := e1
    exact h.poise.of_only (fs := [.pageX]) (by touch) (by decide)
  · intro e1
    rw [pure_ok] at e1
    subst e1
    refine h.poise.of_only (fs := [.paperX, .pageX]) ?_ (by decide)
    unfold Context.putX; split <;> touch

theorem newline (h : Calm n b c) {k : Nat} (hk : k ≤ 255) (hb : b + 255 * k < U32) : ∃ c', c.newline k = .ok c' ∧ Calm n (b + 255 * k) c' := by
  have h1 : c.text.lineSpacing.toNat * k ≤ 255 * k := Nat.mul_le_mul_right _ (by have := c.text.lineSpacing.toNat_lt; omega)
  have h2 : mulU32 c.text.lineSpacing.toNat k = .ok (c.text.lineSpacing.toNat * k) := mulU32_ok.2 ⟨by omega, rfl⟩
  obtain ⟨c', e1, e2⟩ := h.resetX.offsetY (y := c.text.lineSpacing.toNat * k) (by omega)
  refine ⟨c', ?_, e2.mono (by omega)⟩
  simp only [Context.newline, h2, bind, Except.bind, e1]

theorem feed (h : Calm n b c) {k : Nat} (hb : b + k < U32) : ∃ c', c.feed k = .ok c' ∧ Calm n (b + k) c' := by
  obtain ⟨c', e1, e2⟩ := h.offsetY hb
  refine ⟨_, ?_, e2.resetX⟩
  simp only [Context.feed, e1, bind, Except.bind]; rfl

/-- The geometry of the page. -/
theorem pageArea (h : Calm n b c) :
    ∃ p t w k, c.pageMode.applyLogicalArea = .ok (p, t, w, k) ∧ Calm n b { c with pageMode := p } ∧ w ≤ 131072 ∧ k ≤ 131072 := by
  have area : ∀ {p t w k}, c.pageMode.applyLogicalArea = .ok (p, t, w, k) → w = p.pageArea.w ∧ k = p.pageArea.h := by
    intro p t w k e
    simp only [PageModeContext.applyLogicalArea, bind_ok, pure_ok, Prod.mk.injEq] at e
    obtain ⟨_, _, _, _, _, _, rfl, _, rfl, rfl⟩ := e
    exact ⟨rfl, rfl⟩
  obtain ⟨l1, l2, l3, l4⟩ := h.poise.logical
  obtain ⟨p1, p2, p3, p4⟩ := h.poise.page
  have low := h.low
  have fin : ∀ {p : PageModeContext}, (∃ t w k, c.pageMode.applyLogicalArea = .ok (p, t, w, k)) → p.enabled = c.pageMode.enabled →
      p.logicalArea = c.pageMode.logicalArea →
      p.pageArea.x ≤ 131072 ∧ p.pageArea.y ≤ 131072 ∧ p.pageArea.w ≤ 131072 ∧ p.pageArea.h ≤ 131072 →
      p.renderArea.x ≤ 131072 ∧ p.renderArea.y ≤ 131072 ∧ p.renderArea.w ≤ 131072 ∧ p.renderArea.h ≤ 131072 →
      ∃ p t w k, c.pageMode.applyLogicalArea = .ok (p, t, w, k) ∧ Calm n b { c with pageMode := p } ∧ w ≤ 131072 ∧ k ≤ 131072 := by
    intro p ⟨t, w, k, e⟩ h1 h2 h3 h4
    refine ⟨p, t, w, k, e, ⟨⟨?_, h.lane.width, h4.2.2.1, h3.1, h.lane.tabs, h.lane.x, h.lane.y, ?_, ?_⟩, ?_, h.low⟩,
      Nat.le_trans (Nat.le_of_eq (area e).1) h3.2.2.1, Nat.le_trans (Nat.le_of_eq (area e).2) h3.2.2.2⟩
    · intro hn; rw [← h.lane.mode hn]; exact h1
    · exact Nat.le_trans h4.1 (by decide)
    · exact Nat.le_trans h4.2.1 (by omega)
    · have q := h.poise
      exact ⟨q.default, q.cell, q.widthMult, q.heightMult, q.narrow, q.right, q.hMotion, q.vMotion, q.dpi, q.decoder, q.symbol, q.stored, q.buffer,
        h2 ▸ q.logical, h3, ⟨h4.2.2.1, h4.2.2.2⟩⟩
  have hs : (swapPage c.pageMode).enabled = c.pageMode.enabled ∧ (swapPage c.pageMode).logicalArea = c.pageMode.logicalArea ∧
      (swapPage c.pageMode).direction = c.pageMode.direction ∧ (swapPage c.pageMode).pageArea.w ≤ 131072 ∧ (swapPage c.pageMode).pageArea.h ≤ 131072 := by
    unfold swapPage
    dsimp only
    split
    · exact ⟨rfl, rfl, rfl, p4, p3⟩
    · exact ⟨rfl, rfl, rfl, p3, p4⟩
  clear area
  revert fin
  unfold PageModeContext.applyLogicalArea
  dsimp only
  generalize swapPage c.pageMode = q at hs
  obtain ⟨s1, s2, s3, s4, s5⟩ := hs
  intro fin
  have add : ∀ {x y : Nat}, x + y ≤ 1048576 → addU32 x y = .ok (x + y) := fun hxy => addU32_ok.2 ⟨Nat.lt_of_le_of_lt hxy (by decide), rfl⟩
  unfold translateArea at fin ⊢
  rw [← s2] at l1 l2 l3 l4
  cases hd : q.direction <;> simp only [hd] at fin ⊢
  · refine fin (p := { q with
        renderArea := q.logicalArea
        pageArea := ⟨q.logicalArea.x, q.logicalArea.y,
      max (q.logicalArea.x + q.logicalArea.w) q.pageArea.w, max (q.logicalArea.y + q.logicalArea.h) q.pageArea.h⟩ }) ?_ s1 s2 ?_ ?_
    rotate_left 1
    · dsimp only; omega
    · dsimp only; omega
    · simp only [translateTopLeftToRight, bind, Except.bind, pure, Except.pure]
      rw [add (by omega), add (by omega)]
      exact ⟨_, _, _, rfl⟩
  · refine fin (p := { q with
        renderArea := ⟨q.pageArea.w - (q.logicalArea.x + q.logicalArea.w), q.logicalArea.y, q.logicalArea.w, q.logicalArea.h⟩
        pageArea := ⟨q.pageArea.w - (q.logicalArea.x + q.logicalArea.w), q.logicalArea.y,
      max (q.pageArea.w - (q.logicalArea.x + q.logicalArea.w) + q.logicalArea.w) q.pageArea.w, max (q.logicalArea.y + q.logicalArea.h) q.pageArea.h⟩ }) ?_ s1 s2 ?_ ?_
    rotate_left 1
    · dsimp only; omega
    · dsimp only; omega
    · simp only [translateBottomRightToLeft, bind, Except.bind, pure, Except.pure]
      rw [add (by omega)]; dsimp only; rw [add (by omega)]; dsimp only; rw [add (by omega)]
      exact ⟨_, _, _, rfl⟩
  · refine fin (p := { q with
        renderArea := ⟨q.pageArea.w - (q.logicalArea.y + q.logicalArea.h), q.pageArea.h - (q.logicalArea.x + q.logicalArea.w), q.logicalArea.h, q.logicalArea.w⟩
        pageArea := ⟨q.pageArea.w - (q.logicalArea.y + q.logicalArea.h), q.pageArea.h - (q.logicalArea.x + q.logicalArea.w),
      max (q.pageArea.w - (q.logicalArea.y + q.logicalArea.h) + q.logicalArea.h) q.pageArea.w,
      max (q.pageArea.h - (q.logicalArea.x + q.logicalArea.w) + q.logicalArea.w) q.pageArea.h⟩ }) ?_ s1 s2 ?_ ?_
    rotate_left 1
    · dsimp only; omega
    · dsimp only; omega
    · simp only [translateTopRightToBottom, bind, Except.bind, pure, Except.pure]
      rw [add (by omega)]; dsimp only; rw [add (by omega)]; dsimp only; rw [add (by omega)]; dsimp only; rw [add (by omega)]
      exact ⟨_, _, _, rfl⟩
  · refine fin (p := { q with
        renderArea := ⟨q.pageArea.w - (q.logicalArea.y + q.logicalArea.h), q.logicalArea.x, q.logicalArea.h, q.logicalArea.w⟩
        pageArea := ⟨q.pageArea.w - (q.logicalArea.y + q.logicalArea.h), q.logicalArea.x,
      max (q.pageArea.w - (q.logicalArea.y + q.logicalArea.h) + q.logicalArea.h) q.pageArea.w,
      max (q.logicalArea.x + q.logicalArea.w) q.pageArea.h⟩ }) ?_ s1 s2 ?_ ?_
    rotate_left 1
    · dsimp only; omega
    · dsimp only; omega
    · simp only [translateBottomLeftToTop, bind, Except.bind, pure, Except.pure]
      rw [add (by omega)]; dsimp only; rw [add (by omega)]; dsimp only; rw [add (by omega)]
      exact ⟨_, _, _, rfl⟩

end Calm

/-! ### Device commands -/

variable {σ Out : Type} {R : OutputRenderer σ Out} {n : Bool} {b B : Nat}

theorem asU32_small {k : Int} (h : 0 ≤ k ∧ k ≤ 255) : Renderer.asU32 k = k.toNat ∧ k.toNat ≤ 255 := by
  unfold Renderer.asU32
  have : (U32 : Int) = 4294967296 := rfl
  rw [this, Int.emod_eq_of_lt (by omega) (by omega)]
  omega

theorem pageAreaChanged_calm (hR : TotalOn (Near n B) R) {r : Renderer σ Out} (h : Calm n b r.context) (hB : b ≤ B) :
    ∃ r', Renderer.pageAreaChanged R r = .ok r' ∧ Calm n b r'.context ∧ r'.spanBuffer = r.spanBuffer := by
  obtain ⟨p, t, w, k, e1, e2, e4⟩ := h.pageArea
  obtain ⟨s, e3⟩ := hR.pageAreaChanged { r.context with pageMode := p } t w k r.child ⟨e2.lane.mono hB, e4⟩
  refine ⟨{ r with child := s, context := { r.context with pageMode := p } }, ?_, e2, rfl⟩
  simp only [Renderer.pageAreaChanged, e1, e3, bind, Except.bind]; rfl

theorem deviceCommand_calm (hR : TotalOn (Near n B) R) {r : Renderer σ Out} (h : Calm n b r.context) {d : DeviceCommand} (hd : DeviceOk n d)
    (hb : b + deviceReach d < U32) (hB : b + deviceReach d ≤ B) :
    ∃ r', Renderer.deviceCommand R r d = .ok r' ∧ Calm n (b + deviceReach d) r'.context ∧ r'.spanBuffer = r.spanBuffer := by
  obtain ⟨s, es⟩ := hR.deviceCommand r.context d r.child (h.lane.mono (by omega))
  unfold Renderer.deviceCommand
  rw [es]
  simp only [bind, Except.bind]
  have p := h.poise
  cases d <;> dsimp only [deviceReach] at hb hB ⊢
  case setTextWidth w => exact ⟨_, rfl, h.text _ p.cell hd.1 p.heightMult hd.2 p.right p.decoder h.lane.tabs, rfl⟩
  case setTextHeight w => exact ⟨_, rfl, h.text _ p.cell p.widthMult hd p.narrow p.right p.decoder h.lane.tabs, rfl⟩
  case justify j => exact ⟨_, rfl, h.text _ p.cell p.widthMult p.heightMult p.narrow hd p.decoder h.lane.tabs, rfl⟩
  case beginPrint =>
    obtain ⟨c', e1, e2⟩ := h.newline (k := 2) (by omega) (by omega)
    obtain ⟨s', e3⟩ := hR.beginRender c' s (e2.lane.mono hB)
    rw [e1]; dsimp only; rw [e3]
    exact ⟨_, rfl, e2, rfl⟩
  case endPrint =>
    obtain ⟨o, e3⟩ := hR.endRender r.context (R.getRenderErrors s).1 (h.lane.mono hB)
    rw [e3]
    exact ⟨_, rfl, h, rfl⟩
  case feedLine k =>
    obtain ⟨k1, k2⟩ := asU32_small hd
    obtain ⟨c', e1, e2⟩ := h.newline (k := Renderer.asU32 k) (by omega) (by omega)
    rw [e1]
    exact ⟨_, rfl, e2.mono (by omega), rfl⟩
  case feed k =>
    obtain ⟨k1, k2⟩ := asU32_small hd
    obtain ⟨c', e1, e2⟩ := h.feed (k := Renderer.asU32 k) (by omega)
    rw [e1]
    exact ⟨_, rfl, e2.mono (by omega), rfl⟩
  case fullCut =>
    obtain ⟨c', e1, e2⟩ := h.newline (k := 2) (by omega) (by omega)
    rw [e1]
    exact ⟨_, rfl, e2, rfl⟩
  case partialCut =>
    obtain ⟨c', e1, e2⟩ := h.newline (k := 2) (by omega) (by omega)
    rw [e1]
    exact ⟨_, rfl, e2, rfl⟩
  case beginPageMode =>
    have hd : n = false := hd
    have hl : Lane n b (r.context.modPage fun p => { p with enabled := true }) :=
      ⟨fun hn => absurd (hn.symm.trans hd) (by decide), h.lane.width, h.lane.pageWidth, h.lane.pageBase, h.lane.tabs, h.lane.x, h.lane.y, h.lane.pageX, h.lane.pageY⟩
    obtain ⟨s', e3⟩ := hR.pageBegin (r.context.modPage fun p => { p with enabled := true }) s (hl.mono hB)
    rw [e3]
    exact ⟨_, rfl, ⟨hl, p.of_only (fs := [.pageEnabled]) (by touch) (by decide), h.low⟩, rfl⟩
  case endPageMode =>
    obtain ⟨s', e3⟩ := hR.pageEnd r.context s (h.lane.mono hB)
    rw [e3]
    refine ⟨_, rfl, ⟨?_, p.of_only (fs := [.pageEnabled]) (by touch) (by decide), h.low⟩, rfl⟩
    exact ⟨fun _ => rfl, h.lane.width, h.lane.pageWidth, h.lane.pageBase, h.lane.tabs, h.lane.x, h.lane.y, h.lane.pageX, h.lane.pageY⟩
  case printPageMode =>
    obtain ⟨s', e3⟩ := hR.renderPage r.context s (h.lane.mono (by omega))
    have hy := h.lane.y
    have hp := p.page.2.2.2
    have e4 : addU32 r.context.graphics.renderArea.y r.context.pageMode.pageArea.h = .ok (r.context.graphics.renderArea.y + r.context.pageMode.pageArea.h) :=
      addU32_ok.2 ⟨by omega, rfl⟩
    rw [e3]; dsimp only; rw [e4]
    refine ⟨_, rfl, ⟨?_, p.of_only (fs := [.paperX, .paperY]) (by touch) (by decide), Nat.le_trans h.low (by omega)⟩, rfl⟩
    exact ⟨h.lane.mode, h.lane.width, h.lane.pageWidth, h.lane.pageBase, h.lane.tabs, Nat.zero_le _, (by omega : r.context.graphics.renderArea.y + r.context.pageMode.pageArea.h ≤ b + 131072),
      h.lane.pageX, Nat.le_trans h.lane.pageY (by omega)⟩
  case changePageArea =>
    refine pageAreaChanged_calm hR (r := { r with child := s, context := r.context.modPage fun p => { p with previousDirection := p.direction } }) ?_ hB
    exact h.of_only (fs := [.previousDirection]) (by touch) (by decide)
  case changePageModeDirection => exact pageAreaChanged_calm hR (r := { r with child := s }) h hB
  case changeTabs a k =>
    refine ⟨_, rfl, ?_, rfl⟩
    show Calm n b (r.context.setTabLen a k)
    unfold Context.setTabLen
    split
    · exact h.text _ p.cell p.widthMult p.heightMult p.narrow p.right p.decoder (by rw [List.length_set]; exact h.lane.tabs)
    · exact h
  case clearBufferGraphics =>
    refine ⟨_, rfl, ⟨h.lane.of_only (fs := [.bufferGraphics]) (by touch) (by decide), ?_, h.low⟩, rfl⟩
    exact ⟨p.default, p.cell, p.widthMult, p.heightMult, p.narrow, p.right, p.hMotion, p.vMotion, p.dpi, p.decoder, p.symbol, p.stored,
      by intro g hg; exact absurd hg List.not_mem_nil, p.logical, p.page, p.area⟩
  all_goals exact ⟨_, rfl, h, rfl⟩

theorem deviceCommands_calm (hR : TotalOn (Near n B) R) {ds : List DeviceCommand} {r : Renderer σ Out} (h : Calm n b r.context) (hd : ∀ d ∈ ds, DeviceOk n d)
    (hb : b + (ds.map deviceReach).sum < U32) (hB : b + (ds.map deviceReach).sum ≤ B) :
    ∃ r', Renderer.deviceCommands R ds r = .ok r' ∧ Calm n (b + (ds.map deviceReach).sum) r'.context ∧ r'.spanBuffer = r.spanBuffer := by
  induction ds generalizing r b with
  | nil => exact ⟨r, rfl, h, rfl⟩
  | cons d ds ih =>
    simp only [List.map_cons, List.sum_cons] at hb hB ⊢
    obtain ⟨r1, e1, e2, e3⟩ := deviceCommand_calm hR h (hd d (by simp)) (by omega) (by omega)
    obtain ⟨r2, e4, e5, e6⟩ := ih e2 (fun x hx => hd x (by simp [hx])) (by omega) (by omega)
    refine ⟨r2, ?_, e5.mono (by omega), e6.trans e3⟩
    simp only [Renderer.deviceCommands, e1, bind, Except.bind, e4]

end Thermal
