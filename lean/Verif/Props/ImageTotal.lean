import Verif.Props.Total
import Verif.Props.Picture
import Verif.Proofs.Perform
import Verif.Proofs.ImageTotal
/-
C65 for the image renderer: streams for which an image is drawn.
-/
namespace Thermal
open Renderer Spec

/-- C65, images: a stream that can be laid out, with every call within the limits of the image renderer (`Within`), is drawn to the end, whatever
the fonts look like and however often the page mode and the form feed are used. -/
theorem C65_image (gs : Canvas.Glyphs) (ext : Ext) (bytes : List Byte) (units errs t)
    (h : render recorder ext (Renderer.new []) bytes = .ok (units, errs, t)) (hw : ∀ x ∈ t.child, Within x) :
    ∃ outs errs' r, render (imageRenderer gs) ext (Renderer.new (ImageRenderer.new {})) bytes = .ok (outs, errs', r) := by
  have hdress := render_outfit h
  have hctx : ∀ x ∈ t.child, OnPaper x.1 := by
    have a1 := h
    simp only [render, bind_ok, pure_ok] at a1
    obtain ⟨cs, h1, r1, h2, h3⟩ := a1
    simp only [Prod.mk.injEq] at h3
    obtain ⟨rfl, rfl, rfl⟩ := h3
    exact (processCommands_always (J := OnPaper) OnPaper.pen OnPaper.device OnPaper.apply (r := Renderer.new []) ⟨OnPaper.start, by simp [Renderer.new]⟩ h2).2
  obtain ⟨⟨s', outs⟩, e1, _⟩ := ImageRenderer.replay_safe (gs := gs) (s := (ImageRenderer.new {}, [])) (xs := t.child) ImageRenderer.Safe.new
    (fun x hx => ⟨hctx x hx, hw x hx, (hdress x hx).spans⟩)
  obtain ⟨errs', r, e2, _⟩ := C68_performed _ ext _ _ bytes units errs t outs h e1
  exact ⟨outs, errs', r, e2⟩

/-! ### The calls of a tame stream -/

open Classical in
/-- Writes nothing down, but does not return for calls outside `P`. -/
noncomputable def guard (P : Context → Call → Prop) : OutputRenderer Unit Unit where
  beginRender c s := if P c .beginRender then .ok s else .error .index
  pageBegin c s := if P c .pageBegin then .ok s else .error .index
  pageAreaChanged c r w h s := if P c (.pageAreaChanged r w h) then .ok s else .error .index
  pageEnd c s := if P c .pageEnd then .ok s else .error .index
  renderPage c s := if P c .renderPage then .ok s else .error .index
  renderGraphics c gs s := if P c (.graphics gs) then .ok s else .error .index
  renderImage c i s := if P c (.image i) then .ok s else .error .index
  renderText c l o m j s := if P c (.text l o m j) then .ok s else .error .index
  deviceCommand c d s := if P c (.device d) then .ok s else .error .index
  getRenderErrors s := (s, [])
  endRender c s := if P c .endRender then .ok (s, ()) else .error .index

theorem guard_on (P : Context → Call → Prop) : TotalOn P (guard P) := by
  constructor
  all_goals intros; rename_i h; exact ⟨_, if_pos h⟩

theorem guard_replay {P : Context → Call → Prop} {xs : List (Context × Call)} {s s'} (h : replay (guard P) xs s = .ok s') : ∀ x ∈ xs, P x.1 x.2 := by
  induction xs generalizing s with
  | nil => simp
  | cons x xs ih =>
    simp only [replay, bind_ok] at h
    obtain ⟨s1, h1, h2⟩ := h
    intro y hy
    rcases List.mem_cons.1 hy with rfl | hy
    · obtain ⟨c, k⟩ := y
      dsimp only
      cases k <;> simp only [Call.perform, guard, bind_ok] at h1 <;> (obtain ⟨_, h1, _⟩ := h1; split at h1; assumption; cases h1)
    · exact ih h2 y hy

theorem recorded_near {ext : Ext} (hx : ExtOk ext) {n : Bool} {bytes : List Byte} {cmds : List Command} {units errs t}
    (hp : parseEscPos bytes = .ok cmds) (ht : ∀ c ∈ cmds, Tame n c) (hB : (cmds.map (reach n)).sum + 360448 < 2147483648)
    (h : render recorder ext (Renderer.new []) bytes = .ok (units, errs, t)) :
    ∀ x ∈ t.child, Near n (327680 + (cmds.map (reach n)).sum) x.1 x.2 := by
  obtain ⟨o, e, r, h1, _⟩ := render_bound_on (guard_on (Near n (327680 + (cmds.map (reach n)).sum))) hx (r := Renderer.new ()) (Bound.done (Calm.start n) rfl) hp ht (by omega) (Nat.le_refl _)
  obtain ⟨u', e', t', h2, h3, _⟩ := C68_same_calls _ ext _ bytes _ _ _ h1
  rw [h, ok_ok] at h2
  simp only [Prod.mk.injEq] at h2
  obtain ⟨_, _, rfl⟩ := h2
  exact guard_replay h3

theorem height_ge {l : List TextSpan} : ∀ {a : Nat}, a ≤ l.foldl (fun h s => max h s.characterHeight) a ∧
    ∀ s ∈ l, s.characterHeight ≤ l.foldl (fun h s => max h s.characterHeight) a := by
  induction l with
  | nil => intro a; simp
  | cons t l ih =>
    intro a
    have h := @ih (max a t.characterHeight)
    simp only [List.foldl_cons]
    refine ⟨by omega, ?_⟩
    intro s hs
    rcases List.mem_cons.1 hs with rfl | hs
    · omega
    · exact h.2 s hs

theorem spanW_le {l : List TextSpan} {s : TextSpan} (hs : s ∈ l) : spanW s ≤ lineW l := by
  induction l with
  | nil => simp at hs
  | cons t l ih =>
    have e : lineW (t :: l) = spanW t + lineW l := by simp [lineW]
    rcases List.mem_cons.1 hs with rfl | hs
    · omega
    · have := ih hs; omega

theorem Near.within {n : Bool} {B : Nat} {x : Context × Call} (h : Near n B x.1 x.2) (hr : Roomy x) : Within x := by
  obtain ⟨c, k⟩ := x
  unfold Near at h
  unfold Roomy at hr
  unfold Within
  cases k <;> dsimp only at h hr ⊢
  case text l o m j =>
    obtain ⟨h0, h1, ⟨y, ⟨h2, _⟩, h3⟩, h4, rfl⟩ := h
    have hh : ∀ t ∈ l, t.characterHeight ≤ 192 := fun t ht => (h1.spans t ht).height
    refine ⟨foldl_height (by omega) hh, ?_⟩
    intro s hs
    obtain ⟨d, e1, e2, e3, e4⟩ := h2 s hs
    obtain ⟨d', e1', e5⟩ := h1.placed s hs
    rw [e1] at e1'
    obtain rfl : d = d' := Option.some.inj e1'
    have hw : spanW s ≤ lineW l := spanW_le hs
    have h6 := h1.width
    have hl : s.characterHeight ≤ lineHeight l := height_ge.2 s hs
    unfold spanW at hw
    refine ⟨hl, (h1.spans s hs).strike, ?_, ?_, ?_, ?_⟩ <;> (intro d' hd'; rw [e1] at hd'; obtain rfl : d = d' := Option.some.inj hd')
    · omega
    · omega
    · omega
    · have := hh s hs; omega
  case graphics gs =>
    intro g hg
    obtain ⟨h1, h2, h3, h4⟩ := h.2 g hg
    exact ⟨h1, h2, h3, by omega⟩
  case image i =>
    obtain ⟨h0, h1, h2, h3, h4, h5⟩ := h
    refine ⟨h1, hr.1, by omega, ?_, hr.2⟩
    have := h0.xle
    rw [h4]
    exact Nat.lt_of_le_of_lt (m := 2097152) (by omega) (by decide)
  case renderPage =>
    exact ⟨Nat.lt_of_le_of_lt h.x (by decide), hr⟩
  all_goals exact hr

/-- C65, images: a stream with parameters within what the program handles (`Tame`) is drawn to the end if there is room for all that it prints
(`Roomy`), be it on the paper or on a page. -/
theorem C65_image_partial (gs : Canvas.Glyphs) {ext : Ext} (hx : ExtOk ext) {n : Bool} {bytes : List Byte} {cmds : List Command}
    (hp : parseEscPos bytes = .ok cmds) (ht : ∀ c ∈ cmds, Tame n c) (hB : (cmds.map (reach n)).sum + 360448 < 2147483648)
    (hr : ∀ units errs t, render recorder ext (Renderer.new []) bytes = .ok (units, errs, t) → ∀ x ∈ t.child, Roomy x) :
    ∃ outs errs r, render (imageRenderer gs) ext (Renderer.new (ImageRenderer.new {})) bytes = .ok (outs, errs, r) := by
  obtain ⟨units, errs, t, h⟩ := C65_one_partial total_recorder hx ([] : List (Context × Call)) hp ht hB
  have hn := recorded_near hx hp ht hB h
  exact C65_image gs ext bytes units errs t h (fun x hxm => (hn x hxm).within (hr units errs t h x hxm))

/-! ### Short streams in standard mode -/

/-- Neither an image nor a new page area. -/
def Wordy (x : Context × Call) : Prop := (∀ i, x.2 ≠ .image i) ∧ ∀ k w h, x.2 ≠ .pageAreaChanged k w h

theorem deviceCommand_wordy {d : DeviceCommand} {r r' : Recording} (h : deviceCommand recorder r d = .ok r') (hd : d ≠ .changePageArea ∧ d ≠ .changePageModeDirection)
    (hr : ∀ x ∈ r.child, Wordy x) : ∀ x ∈ r'.child, Wordy x := by
  have snoc : ∀ {l : List (Context × Call)} {c k}, (∀ x ∈ l, Wordy x) → Wordy (c, k) → ∀ x ∈ l ++ [(c, k)], Wordy x := by
    intro l c k h1 h2 x hx
    rcases List.mem_append.1 hx with hx | hx
    · exact h1 x hx
    · rw [List.mem_singleton.1 hx]; exact h2
  have h0 : ∀ x ∈ r.child ++ [(r.context, Call.device d)], Wordy x := snoc hr ⟨by simp, by simp⟩
  simp only [deviceCommand, recorder, bind_ok, ok_ok] at h
  obtain ⟨_, rfl, h⟩ := h
  cases d
  case changePageArea => exact absurd rfl hd.1
  case changePageModeDirection => exact absurd rfl hd.2
  all_goals (simp only [bind_ok, pure_ok, ok_ok] at h)
  case beginPrint => obtain ⟨_, _, _, rfl, rfl⟩ := h; exact snoc h0 ⟨by simp, by simp⟩
  case endPrint => obtain ⟨_, rfl, rfl⟩ := h; exact snoc h0 ⟨by simp, by simp⟩
  case beginPageMode => obtain ⟨_, rfl, rfl⟩ := h; exact snoc h0 ⟨by simp, by simp⟩
  case endPageMode => obtain ⟨_, rfl, rfl⟩ := h; exact snoc h0 ⟨by simp, by simp⟩
  case printPageMode => obtain ⟨_, rfl, _, _, rfl⟩ := h; exact snoc h0 ⟨by simp, by simp⟩
  all_goals first
    | (subst h; exact h0)
    | (obtain ⟨_, _, rfl⟩ := h; exact h0)

theorem deviceCommands_wordy {ds : List DeviceCommand} {r r' : Recording} (h : deviceCommands recorder ds r = .ok r')
    (hd : ∀ d ∈ ds, d ≠ .changePageArea ∧ d ≠ .changePageModeDirection) (hr : ∀ x ∈ r.child, Wordy x) : ∀ x ∈ r'.child, Wordy x := by
  induction ds generalizing r with
  | nil => simp only [deviceCommands, ok_ok] at h; subst h; exact hr
  | cons d ds ih =>
    simp only [deviceCommands, bind_ok] at h
    obtain ⟨r1, h1, h2⟩ := h
    exact ih h2 (fun x hx => hd x (by simp [hx])) (deviceCommand_wordy h1 (hd d (by simp)) hr)

theorem processText_wordy {r r' : Recording} (h : processText recorder r = .ok r') (hr : ∀ x ∈ r.child, Wordy x) : ∀ x ∈ r'.child, Wordy x := by
  by_cases hb : r.spanBuffer = []
  · simp only [processText, hb, List.isEmpty_nil, if_true, ok_ok] at h
    subst h; exact hr
  · obtain ⟨calls, l, ss, e, _, _, _, _, _, _, _, hc⟩ := processText_calls h hb
    intro x hx
    rw [e] at hx
    rcases List.mem_append.1 hx with hx | hx
    · exact hr x hx
    · obtain ⟨_, f, l, off, e, _⟩ := hc x hx
      exact ⟨by rw [e]; simp, by rw [e]; simp⟩

theorem getDevice_wordy {cmd : Command} {c : Context} {o} (h : getDevice cmd c = .ok o) (h1 : cmd.handler ≠ .unit .pageModePrintArea)
    (h2 : cmd.handler ≠ .unit .pageModePrintDirection) : ∀ d ∈ o.getD [], d ≠ .changePageArea ∧ d ≠ .changePageModeDirection := by
  unfold getDevice at h
  split at h
  · rename_i id hh
    rw [hh] at h1 h2
    unfold getDeviceUnit at h
    split at h
    case _ => rw [pure_ok] at h; subst h; simp
    all_goals first
      | exact absurd rfl h1
      | exact absurd rfl h2
      | (rw [pure_ok] at h; subst h; simp; done)
      | skip
    all_goals first
      | (simp only [bind_ok, pure_ok] at h; obtain ⟨_, _, rfl⟩ := h; simp; done)
      | ((try dsimp only at h); (repeat' split at h) <;> rw [pure_ok] at h <;> subst h <;> simp; done)
  all_goals (rw [pure_ok] at h; subst h; simp)

theorem processCommand_wordy {ext : Ext} {cmd : Command} {r r' : Recording} (h : processCommand recorder ext r cmd = .ok r') (hk : cmd.kind ≠ .graphics)
    (h1 : cmd.handler ≠ .unit .pageModePrintArea) (h2 : cmd.handler ≠ .unit .pageModePrintDirection) (hr : ∀ x ∈ r.child, Wordy x) :
    ∀ x ∈ r'.child, Wordy x := by
  unfold processCommand at h
  rcases hc : cmd.kind <;> rw [hc] at h hk <;> dsimp only at h
  case graphics => exact absurd rfl hk
  case unknown =>
    simp only [bind_ok, pure_ok] at h
    obtain ⟨r1, a1, rfl⟩ := h
    have := processText_wordy a1 hr
    exact this
  case text =>
    simp only [bind_ok] at h
    obtain ⟨o, _, h⟩ := h
    split at h
    · rw [pure_ok] at h; subst h; exact hr
    · rw [pure_ok] at h; subst h; exact hr
  case context =>
    simp only [bind_ok, pure_ok] at h
    obtain ⟨r1, a1, _, _, rfl⟩ := h
    have := processText_wordy a1 hr
    exact this
  case contextControl =>
    simp only [bind_ok] at h
    obtain ⟨r1, a1, c, _, o, a2, a3⟩ := h
    have := processText_wordy a1 hr
    exact deviceCommands_wordy a3 (getDevice_wordy a2 h1 h2) this
  case control =>
    simp only [bind_ok] at h
    obtain ⟨r1, a1, o, a2, a3⟩ := h
    first
    | exact deviceCommands_wordy a3 (getDevice_wordy a2 h1 h2) (processText_wordy a1 hr)
    | exact deviceCommands_wordy a3 (getDevice_wordy a1 h1 h2) (processText_wordy a2 hr)
  case textStyle =>
    simp only [bind_ok] at h
    obtain ⟨c, _, o, a2, a3⟩ := h
    exact deviceCommands_wordy a3 (getDevice_wordy a2 h1 h2) hr
  case subcommand => rw [pure_ok] at h; subst h; exact hr

theorem processCommands_wordy {ext : Ext} {cmds : List Command} {r r' : Recording} (h : processCommands recorder ext cmds r = .ok r')
    (hk : ∀ c ∈ cmds, c.kind ≠ .graphics ∧ c.handler ≠ .unit .pageModePrintArea ∧ c.handler ≠ .unit .pageModePrintDirection) (hr : ∀ x ∈ r.child, Wordy x) :
    ∀ x ∈ r'.child, Wordy x := by
  induction cmds generalizing r with
  | nil => simp only [processCommands, ok_ok] at h; subst h; exact hr
  | cons c cmds ih =>
    simp only [processCommands, bind_ok] at h
    obtain ⟨r1, h1, h2⟩ := h
    obtain ⟨k1, k2, k3⟩ := hk c (by simp)
    exact ih h2 (fun x hx => hk x (by simp [hx])) (processCommand_wordy h1 k1 k2 k3 hr)

/-- C65, images: a stream without form feeds and page mode that feeds less than about 6 million dots is drawn to the end, if its images have less
than 2^32 dots and the page areas it sets fit on a page. -/
theorem C65_image_short_partial (gs : Canvas.Glyphs) {ext : Ext} (hx : ExtOk ext) {n : Bool} {bytes : List Byte} {cmds : List Command}
    (hp : parseEscPos bytes = .ok cmds) (ht : ∀ c ∈ cmds, Tame n c) (hf : ∀ c ∈ cmds, c.commands ≠ [12] ∧ c.commands ≠ [27, 76])
    (hB : (cmds.map (reach n)).sum + 458752 ≤ 6600000)
    (hi : ∀ units errs t, render recorder ext (Renderer.new []) bytes = .ok (units, errs, t) → ∀ x ∈ t.child,
      (∀ i, x.2 = .image i → i.w * i.h < U32) ∧ ∀ k w h, x.2 = .pageAreaChanged k w h → w ≤ widest ∧ h ≤ widest) :
    ∃ outs errs r, render (imageRenderer gs) ext (Renderer.new (ImageRenderer.new {})) bytes = .ok (outs, errs, r) := by
  have hU : (cmds.map (reach n)).sum + 360448 < 2147483648 := by omega
  refine C65_image_partial gs hx hp ht hU ?_
  intro units errs t h x hxm
  have hn := recorded_near hx hp ht hU h x hxm
  have hxi := hi units errs t h x hxm
  obtain ⟨c0, c1, c2, c3, calls, ec, hc⟩ := one_sheet hp hf h
  generalize hs : (cmds.map (reach n)).sum = b at hB hn
  have hcase : x.2 = .beginRender ∨ (∃ d, x.2 = .device d) ∨ x.2 = .endRender ∨ Fair Standard Plain x := by
    rw [ec] at hxm
    simp only [List.cons_append, List.mem_cons, List.mem_append, List.not_mem_nil, or_false] at hxm
    rcases hxm with rfl | rfl | hxm | rfl | rfl
    · exact .inr (.inl ⟨_, rfl⟩)
    · exact .inl rfl
    · exact .inr (.inr (.inr (hc x hxm)))
    · exact .inr (.inl ⟨_, rfl⟩)
    · exact .inr (.inr (.inl rfl))
  obtain ⟨c, k⟩ := x
  rcases hcase with e | ⟨d, e⟩ | e | hfair
  · dsimp only at e; subst e; trivial
  · dsimp only at e; subst e; trivial
  · dsimp only at e; subst e
    have := Lane.y hn
    show c.graphics.renderArea.y ≤ 6600000
    dsimp only at this
    omega
  · have hd : depth c = 6600000 := by
      unfold depth
      rw [show c.pageMode.enabled = false from hfair.context]
      rfl
    unfold Near at hn
    unfold Roomy
    cases k <;> dsimp only at hn ⊢
    case text => have := hn.1.yle; omega
    case graphics => have := hn.1; omega
    case image i =>
      obtain ⟨h0, h1, h2, h3, h4, h5⟩ := hn
      have := h0.yle
      exact ⟨hxi.1 i rfl, by omega⟩
    case pageAreaChanged k w h => exact hxi.2 k w h rfl
    case renderPage => exact absurd rfl (hfair.pages rfl).2.2.2
    case endRender => exact absurd rfl (hfair.ends rfl).2.1

theorem plain_textual : ∀ b ∈ baseCommands ++ [beginPrintCmd, endPrintCmd], b.textual →
    b.commands ≠ [12] ∧ b.commands ≠ [27, 76] ∧ b.handler ≠ .unit .pageModePrintArea ∧ b.handler ≠ .unit .pageModePrintDirection := by decide +kernel

theorem sameClass_unit {h : Handler} {id : Hid} (e : Handler.sameClass h (.unit id)) : h = .unit id := by
  cases h <;> simp_all [Handler.sameClass]

theorem textual_plain {bytes : List Byte} {cmds : List Command} (hp : parseEscPos bytes = .ok cmds) (ht : ∀ c ∈ cmds, ¬ c.isBegin → ¬ c.isEnd → c.textual) :
    ∀ c ∈ cmds, c.commands ≠ [12] ∧ c.commands ≠ [27, 76] ∧ c.kind ≠ .graphics ∧ c.handler ≠ .unit .pageModePrintArea ∧
      c.handler ≠ .unit .pageModePrintDirection := by
  have hk := parse_known hp
  have hfr : ∀ c ∈ cmds, c.commands ≠ [12] ∧ c.commands ≠ [27, 76] ∧ c.kind ≠ .graphics ∧ c.handler ≠ .unit .pageModePrintArea ∧
      c.handler ≠ .unit .pageModePrintDirection := by
    obtain ⟨mid, hm, hmid⟩ := parseEscPos_framed hp
    rw [hm] at hk ht ⊢
    intro c hc
    simp only [List.cons_append, List.mem_cons, List.mem_append, List.not_mem_nil, or_false] at hc
    rcases hc with rfl | hc | rfl
    · decide
    · have htx := ht c (by simp [hc]) (hmid c hc).1 (hmid c hc).2
      obtain ⟨base, hb, hd⟩ := sub_textual (hk c (by simp [hc])) htx
      have hkb : base.textual := by unfold Command.textual at htx ⊢; rw [← hd.kind]; exact htx
      have key := plain_textual base hb hkb
      rw [hd.commands]
      refine ⟨key.1, key.2.1, (by rcases htx with h | h | h <;> rw [h] <;> decide), ?_, ?_⟩
      · intro e
        have := hd.handler
        rw [e] at this
        exact key.2.2.1 (sameClass_unit this)
      · intro e
        have := hd.handler
        rw [e] at this
        exact key.2.2.2 (sameClass_unit this)
    · decide
  exact hfr

/-- C65, images: every stream of only text, tabs, line ends, text styles and unknown commands, however malformed, below 24000 bytes is drawn to the end. -/
theorem C65_image_text (gs : Canvas.Glyphs) {ext : Ext} (hx : ExtOk ext) {bytes : List Byte} {cmds : List Command}
    (hp : parseEscPos bytes = .ok cmds) (ht : ∀ c ∈ cmds, ¬ c.isBegin → ¬ c.isEnd → c.textual) (hB : bytes.length ≤ 24000) :
    ∃ outs errs r, render (imageRenderer gs) ext (Renderer.new (ImageRenderer.new {})) bytes = .ok (outs, errs, r) := by
  obtain ⟨h1, h2⟩ := textual_reach hp ht
  have hfr := textual_plain hp ht
  refine C65_image_short_partial gs hx hp h2 (fun c hc => ⟨(hfr c hc).1, (hfr c hc).2.1⟩) (by omega) ?_
  intro units errs t h x hxm
  have hw : Wordy x := by
    have a1 := h
    simp only [render, bind_ok, pure_ok] at a1
    obtain ⟨cs, b1, r1, b2, b3⟩ := a1
    simp only [Prod.mk.injEq] at b3
    obtain ⟨rfl, rfl, rfl⟩ := b3
    rw [hp, ok_ok] at b1
    subst b1
    exact processCommands_wordy b2 (fun c hc => (hfr c hc).2.2) (by simp [Renderer.new]) x hxm
  exact ⟨fun i e => absurd e (hw.1 i), fun k w h e => absurd e (hw.2 k w h)⟩

/-- C65_image_text, a concrete print job with missing and absurd parameters. -/
example : ∃ cmds, parseEscPos [72, 105, 27, 1, 29, 33, 255, 72, 105, 9, 13, 10, 27, 116, 200, 128, 27, 82, 99, 35, 29, 40, 78, 255, 255, 1, 27, 77] = .ok cmds ∧
    (∀ c ∈ cmds, ¬ c.isBegin → ¬ c.isEnd → c.textual) ∧ ([72, 105, 27, 1, 29, 33, 255, 72, 105, 9, 13, 10, 27, 116, 200, 128, 27, 82, 99, 35, 29, 40, 78, 255, 255, 1, 27, 77] : List Byte).length ≤ 24000 := by
  refine ⟨_, rfl, ?_⟩; decide +kernel

instance (x : Context × Call) : Decidable (Roomy x) := by
  unfold Roomy
  split <;> infer_instance

/-- C65_image_partial, a page with text and an image, then centred text and a bit image on the paper. -/
example : ∃ cmds units errs t, parseEscPos ([27, 76, 27, 87, 0, 0, 0, 0, 0, 1, 0, 1, 72, 105, 10, 29, 118, 48, 0, 1, 0, 2, 0, 255, 129, 12] ++ [27, 97, 1, 72, 105, 10, 27, 42, 33, 1, 0, 255, 129, 255]) = .ok cmds ∧
    (∀ c ∈ cmds, Tame false c) ∧ (cmds.map (reach false)).sum + 360448 < 2147483648 ∧
    render recorder noExt (Renderer.new []) ([27, 76, 27, 87, 0, 0, 0, 0, 0, 1, 0, 1, 72, 105, 10, 29, 118, 48, 0, 1, 0, 2, 0, 255, 129, 12] ++ [27, 97, 1, 72, 105, 10, 27, 42, 33, 1, 0, 255, 129, 255]) = .ok (units, errs, t) ∧
    (∀ x ∈ t.child, Roomy x) ∧ t.child.length = 17 := by
  refine ⟨_, _, _, _, rfl, ?_, ?_, rfl, ?_⟩ <;> decide +kernel

/-- The image renderer panics on this print job. -/
def ImagePanics (bytes : List Byte) : Bool :=
  match render (imageRenderer dotty) noExt (Renderer.new (ImageRenderer.new {})) bytes with
  | .error _ => true
  | .ok _ => false

/-- C65. A page area of more than 2^32 dots, which the layout accepts, panics in the image renderer. -/
theorem C65_image_panics :
    ImagePanics [27, 76, 27, 87, 255, 255, 255, 255, 255, 255, 255, 255, 72] = true ∧ Panics [27, 76, 27, 87, 255, 255, 255, 255, 255, 255, 255, 255, 72] = false := by
  decide +kernel
end Thermal
