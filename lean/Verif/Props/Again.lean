import Verif.Props.Sheets
/-
C88: jobs printed one after the other with one renderer.
-/
namespace Thermal
open Spec Renderer ImageRenderer

/-! ### Streams that begin with `ESC @` -/

theorem push_initialize (b : Byte) : initializeCmd.push b = .ok (initializeCmd, false) := by
  simp only [Command.push, initializeCmd]; rfl

/-- After `ESC @`: it is the current command, or it has been put out. -/
structure InitFirst (s : PS) : Prop where
  first : s.out = [beginPrintCmd] ∧ s.cur = some initializeCmd ∧ s.isDef = false ∨ [beginPrintCmd, initializeCmd] <+: s.out

theorem emitted_initialize : emitted initializeCmd = [initializeCmd] := by decide +kernel

theorem InitFirst.search {s s' : PS} {b : Byte} (h : InitFirst s) (hs : SearchCase s b s') : InitFirst s' := by
  obtain ⟨⟨h1, h2, h3⟩ | h⟩ := h
  · cases hs with
    | complete c hl => exact ⟨.inr (by simp [h1, h2, emittedOpt, emitted_initialize])⟩
    | part hl => exact ⟨.inl ⟨h1, h2, h3⟩⟩
    | lead hl hL => exact ⟨.inr (by simp [h1, h2, emittedOrUnknown, emitted_initialize])⟩
    | append hl hL hd => rw [h3] at hd; cases hd
    | text hl hL hd => exact ⟨.inr (by simp [h1, h2, emittedOrUnknown, emitted_initialize])⟩
  · cases hs with
    | complete c hl => exact ⟨.inr (h.trans (List.prefix_append _ _))⟩
    | part hl => exact ⟨.inr h⟩
    | lead hl hL => exact ⟨.inr (h.trans (List.prefix_append _ _))⟩
    | append hl hL hd => exact ⟨.inr h⟩
    | text hl hL hd => exact ⟨.inr (h.trans (List.prefix_append _ _))⟩

theorem InitFirst.step {s s' : PS} {b : Byte} (h : InitFirst s) (hs : s.step b = .ok s') : InitFirst s' := by
  cases step_case hs with
  | push c c' hp hd hc hpu =>
    obtain ⟨⟨h1, h2, h3⟩ | h⟩ := h
    · rw [h2, Option.some.injEq] at hc
      subst hc
      rw [push_initialize, ok_ok] at hpu
      cases hpu
    · exact ⟨.inr h⟩
  | reject c c' hp hd hc hpu s' hsc =>
    refine InitFirst.search ?_ hsc
    obtain ⟨⟨h1, h2, h3⟩ | h⟩ := h
    · rw [h2, Option.some.injEq] at hc
      subst hc
      rw [push_initialize, ok_ok] at hpu
      cases hpu
      exact ⟨.inl ⟨h1, rfl, h3⟩⟩
    · exact ⟨.inr h⟩
  | search hns s' hsc => exact h.search hsc

/-- A stream that begins with `ESC @`. -/
theorem parse_initialize {bytes : List Byte} {cmds} (h : parseEscPos (27 :: 64 :: bytes) = .ok cmds) :
    ∃ rest, cmds = beginPrintCmd :: initializeCmd :: rest := by
  rw [parseEscPos_eq, show (27 :: 64 :: bytes : List Byte) = [27, 64] ++ bytes from rfl, PS.run_append] at h
  have h0 : ∃ s, PS.init.run [27, 64] = .ok s ∧ InitFirst s := ⟨_, rfl, ⟨.inl (by decide +kernel)⟩⟩
  obtain ⟨s, e, hs⟩ := h0
  rw [e] at h
  simp only [Except.bind] at h
  rcases hy : s.run bytes with e | t
  · rw [hy] at h; simp [Except.map] at h
  · rw [hy] at h
    simp only [Except.map, Except.ok.injEq] at h
    subst h
    have key := PS.run_induct (fun _ s => InitFirst s) hs (fun _ _ _ _ _ h1 h2 => h1.step h2) bytes t hy
    obtain ⟨⟨h1, h2, _⟩ | ⟨l, hl⟩⟩ := key
    · exact ⟨[endPrintCmd], by simp [PS.finish, h1, h2, emittedOpt, emitted_initialize]⟩
    · exact ⟨l ++ emittedOpt t.cur ++ [endPrintCmd], by rw [PS.finish, ← hl]; simp⟩

/-! ### Page mode -/

/-- Standard mode, and no page has been set up. -/
def NoPage (c : Context) : Prop := c.pageMode = Context.new.pageMode

theorem NoPage.pen {c c' : Context} (hc : NoPage c) (h : PenDown c c') : NoPage c' := by
  obtain ⟨gx, gy, px, py, rfl, _, _, h3⟩ := h
  unfold NoPage at hc
  rw [hc] at h3
  obtain ⟨rfl, rfl⟩ := h3
  unfold NoPage Context.withPens
  dsimp only
  rw [hc]

theorem NoPage.only {fs : List Setting} {c c' : Context} (hc : NoPage c) (h : OnlyChanges fs c c')
    (hf : ∀ f ∈ [Setting.pageEnabled, .logicalArea, .pageX, .pageY, .pageW, .pageH, .pageArea, .direction, .previousDirection], f ∉ fs) : NoPage c' := by
  have e1 := h _ (hf .pageEnabled (by simp))
  have e2 := h _ (hf .logicalArea (by simp))
  have e3 := h _ (hf .pageX (by simp))
  have e4 := h _ (hf .pageY (by simp))
  have e5 := h _ (hf .pageW (by simp))
  have e6 := h _ (hf .pageH (by simp))
  have e7 := h _ (hf .pageArea (by simp))
  have e8 := h _ (hf .direction (by simp))
  have e9 := h _ (hf .previousDirection (by simp))
  simp only [Setting.same] at e1 e2 e3 e4 e5 e6 e7 e8 e9
  unfold NoPage at *
  rw [← hc]
  obtain ⟨⟨_, _, _, _, ⟨a, b, ⟨x, y, w, hh⟩, d, e, f⟩⟩, _⟩ := c
  obtain ⟨⟨_, _, _, _, ⟨a', b', ⟨x', y', w', hh'⟩, d', e', f'⟩⟩, _⟩ := c'
  dsimp only at *
  subst e1 e2 e3 e4 e5 e6 e7 e8 e9
  rfl

theorem NoPage.apply {ext : Ext} {cmd : Command} {c c' : Context} (hc : NoPage c) (h : applyContext ext cmd c = .ok c') : NoPage c' := by
  have off : c.pageMode.enabled = false := by rw [show c.pageMode = _ from hc]; rfl
  have easy : (∀ f ∈ [Setting.pageEnabled, .logicalArea, .pageX, .pageY, .pageW, .pageH, .pageArea, .direction, .previousDirection],
      f ∉ handlerWrites cmd.handler) → NoPage c' := fun hf => hc.only (applyContext_only h) hf
  have h2 : ∀ h : SubId, ∀ f ∈ [Setting.pageEnabled, .logicalArea, .pageX, .pageY, .pageW, .pageH, .pageArea, .direction, .previousDirection],
      f ∉ subWrites h := by intro h; cases h <;> decide
  rcases hh : cmd.handler with id | id | _ | s | _ <;> rw [hh] at easy
  case unit =>
    simp only [applyContext, hh] at h
    cases id
    case offsetVerticalPos => simp only [applyUnit, off, Bool.false_eq_true, if_false, pure_ok] at h; subst h; exact hc
    case pageModePrintArea => simp only [applyUnit, off, Bool.false_eq_true, if_false, pure_ok] at h; subst h; exact hc
    case pageModePrintDirection => simp only [applyUnit, off, Bool.false_eq_true, if_false, pure_ok] at h; subst h; exact hc
    case setVerticalPos => simp only [applyUnit, off, Bool.false_eq_true, if_false, pure_ok] at h; subst h; exact hc
    case setHorizontalPos =>
      simp only [applyUnit, Context.setXAbsolute, off, Bool.false_eq_true, if_false, bind_ok, pure_ok] at h
      obtain ⟨_, _, rfl⟩ := h
      unfold Context.putX NoPage
      rw [off]; exact hc
    case selectStandardMode =>
      simp only [applyUnit, pure_ok] at h
      subst h
      unfold NoPage Context.modPage
      dsimp only
      rw [show c.pageMode = _ from hc]; rfl
    all_goals exact easy (by simp only [handlerWrites]; decide)
  all_goals first
    | exact easy (by simp only [handlerWrites]; exact h2 _)
    | exact easy (by simp only [handlerWrites]; decide)
    | exact easy (by simp only [handlerWrites]; split <;> first | exact h2 _ | decide)

theorem NoPage.device {d : DeviceCommand} {c c' : Context} (hd : d ≠ .beginPageMode) (hc : NoPage c) (h : deviceContext d c = .ok c') : NoPage c' := by
  have easy : (∀ f ∈ [Setting.pageEnabled, .logicalArea, .pageX, .pageY, .pageW, .pageH, .pageArea, .direction, .previousDirection],
      f ∉ deviceWrites d) → NoPage c' := fun hf => hc.only (deviceContext_only h) hf
  have key : ∀ p x, Context.new.pageMode.applyLogicalArea = .ok (p, x) → p = Context.new.pageMode := by
    intro p x e
    have h1 : ∃ y, Context.new.pageMode.applyLogicalArea = .ok (Context.new.pageMode, y) := ⟨_, rfl⟩
    obtain ⟨y, h1⟩ := h1
    rw [h1, ok_ok] at e
    exact (Prod.mk.inj e).1.symm
  cases d
  case beginPageMode => exact absurd rfl hd
  case endPageMode =>
    simp only [deviceContext, ok_ok] at h
    subst h
    unfold NoPage Context.modPage
    dsimp only
    rw [show c.pageMode = _ from hc]; rfl
  case changePageArea =>
    simp only [deviceContext, bind_ok, ok_ok] at h
    obtain ⟨⟨p, x⟩, h1, rfl⟩ := h
    rw [show c.pageMode = _ from hc] at h1
    exact key p x h1
  case changePageModeDirection =>
    simp only [deviceContext, bind_ok, ok_ok] at h
    obtain ⟨⟨p, x⟩, h1, rfl⟩ := h
    rw [show c.pageMode = _ from hc] at h1
    exact key p x h1
  case beginPrint => exact hc.pen (.newline h)
  case feedLine => exact hc.pen (.newline h)
  case feed => exact hc.pen (.feed h)
  case fullCut => exact hc.pen (.newline h)
  case partialCut => exact hc.pen (.newline h)
  all_goals exact easy (by simp only [deviceWrites]; decide)

theorem base_pageMode : ∀ base ∈ baseCommands ++ [beginPrintCmd, endPrintCmd], base.handler = .unit .setPageMode →
    base.commands = [27, 76] := by decide +kernel

theorem known_pageMode {c : Command} (h : Known c) (hh : c.handler = .unit .setPageMode) : c.commands = [27, 76] := by
  rcases h with ⟨base, hb, hk, hd⟩ | ⟨op, hdr, x, h1, h2, h3, h4, h5⟩
  · have := hd.handler
    rw [hh] at this
    rw [hd.commands]
    refine base_pageMode base hb ?_
    rcases h1 : base.handler <;> rw [h1] at this <;> simp [Handler.sameClass] at this
    rw [this]
  · rw [hh] at h4; cases h4

/-- Only `ESC L` begins page mode. -/
theorem beginPageMode_handler {cmd : Command} {c : Context} {ds} (h : getDevice cmd c = .ok (some ds)) (hd : .beginPageMode ∈ ds) :
    cmd.handler = .unit .setPageMode := by
  unfold getDevice at h
  split at h
  · rename_i id hh
    rw [hh]
    cases id <;> simp only [getDeviceUnit, pure_ok, reduceCtorEq, Option.some.injEq] at h
    case setPageMode => rfl
    case setTabLen => simp only [bind_ok, pure_ok, Option.some.injEq] at h; obtain ⟨_, _, rfl⟩ := h; simp at hd
    all_goals first
      | (subst h; simp at hd)
      | (repeat' split at h
         all_goals simp only [pure_ok, Option.some.injEq, reduceCtorEq] at h
         all_goals (subst h; simp at hd))
  · rw [pure_ok] at h; simp only [Option.some.injEq] at h; subst h; simp at hd
  · rw [pure_ok] at h; cases h

/-- Without `ESC L` there is no page. -/
theorem NoPage.commands {σ Out : Type} {R : OutputRenderer σ Out} {ext : Ext} {cmds : List Command} (hk : ∀ c ∈ cmds, Known c)
    (hp : ∀ c ∈ cmds, c.commands ≠ [27, 76]) {r r' : Renderer σ Out} (hr : NoPage r.context) (h : processCommands R ext cmds r = .ok r') :
    NoPage r'.context := by
  refine processCommands_rel (P := fun c c' => NoPage c → NoPage c') (fun _ h => h) (fun h1 h2 h => h2 (h1 h)) ?_ h hr
  intro cmd hm r r' hc
  refine processCommand_rel (P := fun c c' => NoPage c → NoPage c') (fun _ h => h) (fun h1 h2 h => h2 (h1 h)) (fun h1 h2 => h2.pen h1)
    (fun h1 h2 => h2.apply h1) ?_ hc
  intro c ds hg d hd c c' hdc hn
  refine hn.device ?_ hdc
  rintro rfl
  exact hp cmd hm (known_pageMode (hk cmd hm) (beginPageMode_handler hg hd))

/-! ### The sheets of jobs -/

/-- The calls of jobs that are printed one after the other, job by job: each goes on with the settings and the position the one before it left. -/
def Spec.jobCalls (ext : Ext) : List (List Byte) → Context → Rs (List (List (Context × Call)))
  | [], _ => .ok []
  | b :: bs, c => do
    let (_, _, t) ← render recorder ext ⟨[], [], [], [], c⟩ b
    let more ← Spec.jobCalls ext bs t.context
    .ok (t.child :: more)

/-- The first calls of a job. -/
theorem first_calls_from {ext : Ext} {bytes : List Byte} {c : Context} {outs errs} {t : Recording}
    (h : render recorder ext ⟨[], [], [], [], c⟩ bytes = .ok (outs, errs, t)) :
    ∃ c1 calls, c.newline 2 = .ok c1 ∧ t.child = (c, .device .beginPrint) :: (c1, .beginRender) :: calls := by
  simp only [render, bind_ok, pure_ok] at h
  obtain ⟨cmds, h1, r1, h2, h3⟩ := h
  simp only [Prod.mk.injEq] at h3
  obtain ⟨_, _, rfl⟩ := h3
  obtain ⟨mid, hm, _⟩ := parseEscPos_framed h1
  rw [hm] at h2
  rw [List.cons_append] at h2
  simp only [processCommands, bind_ok] at h2
  obtain ⟨r3, ha, hb'⟩ := h2
  obtain ⟨r4, o, a1, a2, a3⟩ := control_step ha rfl
  simp only [processText, if_true, ok_ok] at a1
  subst a1
  simp only [getDevice, beginPrintCmd, getDeviceUnit, pure_ok] at a2
  subst a2
  simp only [Option.getD, deviceCommands, deviceCommand, recorder, bind_ok, pure_ok, ok_ok] at a3
  obtain ⟨_, ⟨_, rfl, c1, hc1, _, rfl, rfl⟩, rfl⟩ := a3
  obtain ⟨calls, e⟩ := processCommands_prefix hb'
  exact ⟨c1, calls, hc1, e.symm⟩

/-- A new sheet. -/
theorem begin_sheet (gs : Canvas.Glyphs) (c c1 : Context) :
    Sheets.call gs 609 (Sheets.call gs 609 Sheets.none (c, .device .beginPrint)) (c1, .beginRender) = ⟨some .blank, .empty, []⟩ := by
  show (⟨some .blank, .empty, (Sheets.call gs 609 Sheets.none (c, .device .beginPrint)).done⟩ : Sheets) = _
  have : (Sheets.call gs 609 Sheets.none (c, .device .beginPrint)).done = [] := by
    simp only [Sheets.call]
    split <;> rfl
  rw [this]

/-- A renderer between two jobs. -/
structure Resting (r : Renderer ImageRenderer ReceiptImage) : Prop where
  calm : r.child.debug = {}
  grows : r.child.paper.autoGrow = true
  paper : OnPaper r.context
  outfit : Outfit r.context
  outputs : r.outputBuffer = []
  errors : r.errorBuffer = []
  spans : r.spanBuffer = []

theorem Resting.new : Resting (Renderer.new (ImageRenderer.new {})) := ⟨rfl, rfl, OnPaper.start, Outfit.start, rfl, rfl, rfl⟩

/-- One of several jobs. -/
theorem Resting.job {gs : Canvas.Glyphs} {ext : Ext} {r r' : Renderer ImageRenderer ReceiptImage} {bytes : List Byte} {outs errs} (hr : Resting r)
    (h : render (imageRenderer gs) ext r bytes = .ok (outs, errs, r')) :
    Resting r' ∧ ∃ units errs' t, render recorder ext ⟨[], [], [], [], r.context⟩ bytes = .ok (units, errs', t) ∧ t.context = r'.context ∧
      List.Forall₂ ShowsSheet outs (printedSheets gs 609 (t.child.flatMap fun x => callActs x)) := by
  have hleft := C50_nothing_left h
  simp only [render, bind_ok, pure_ok] at h
  obtain ⟨cmds, h1, r1, h2, h3⟩ := h
  obtain ⟨t, h4, h5⟩ := processCommands_rec (Rec.start (R := imageRenderer gs) (r := r)) h2
  simp only [Prod.mk.injEq] at h3
  obtain ⟨rfl, rfl, rfl⟩ := h3
  rw [hr.errors, hr.spans] at h4
  have hctx := processCommands_always (J := OnPaper) OnPaper.pen OnPaper.device OnPaper.apply (r := ⟨[], [], [], [], r.context⟩) ⟨hr.paper, by simp⟩ h4
  have hdress := Renderer.processCommands_dressed Outfit.ofLook Outfit.pen Outfit.new Outfit.caption Outfit.device
    (fun _ _ _ _ => Outfit.getDevice_sized) Outfit.apply (r := ⟨[], [], [], [], r.context⟩) ⟨hr.outfit, by simp, by simp⟩ h4
  have hrec : render recorder ext ⟨[], [], [], [], r.context⟩ bytes = .ok (t.outputBuffer, t.errorBuffer, { t with outputBuffer := [], errorBuffer := [] }) := by
    simp only [render, bind_ok, pure_ok]
    exact ⟨cmds, h1, t, h4, rfl⟩
  obtain ⟨c1, calls, hnl, ec⟩ := first_calls_from hrec
  dsimp only at ec
  have hcalls := h5.calls
  rw [hr.outputs] at hcalls
  have h5c := h5.context
  have hc' := hctx.2
  have hd' := hdress.calls
  rw [ec] at hcalls hc' hd'
  simp only [replay, bind_ok, Call.perform, imageRenderer, ok_ok] at hcalls
  obtain ⟨s1, ⟨_, rfl, rfl⟩, s2, ⟨_, rfl, rfl⟩, a2⟩ := hcalls
  obtain ⟨b1, b2⟩ := beginRender_at (s := r.child) (hc' (c1, .beginRender) (by simp)) hr.calm hr.grows
  have hat : At (ImageRenderer.beginRender c1 r.child, []) ⟨some .blank, .empty, []⟩ := ⟨hr.calm, b1, b2, .nil⟩
  have hend := hat.replay (xs := calls) (fun x hx => ⟨hc' x (by simp [hx]), hd' x (by simp [hx])⟩) a2
  refine ⟨⟨hend.calm, ?_, by rw [← h5c]; exact hctx.1, by rw [← h5c]; exact hdress.context, rfl, rfl, hleft⟩, _, _, _, hrec, h5c, ?_⟩
  · have := hend.paper
    split at this
    · exact this.view.grows
    · exact this.view.grows
  · unfold printedSheets
    rw [← calls_step]
    dsimp only
    rw [ec, List.foldl_cons, List.foldl_cons, begin_sheet]
    exact hend.done

/-- C88, C82. However many jobs are printed one after the other with a renderer, the images are, one for one, the sheets that the calls of the jobs
print; every job begins with a new sheet and goes on with the settings and the position that the job before it left. -/
theorem C88_jobs (gs : Canvas.Glyphs) (ext : Ext) (jobs : List (List Byte)) (images : List ReceiptImage)
    (h : Renderer.jobs gs ext jobs (Renderer.new (ImageRenderer.new {})) = .ok images) :
    ∃ calls, Spec.jobCalls ext jobs Context.new = .ok calls ∧
      List.Forall₂ ShowsSheet images (calls.flatMap fun l => printedSheets gs 609 (l.flatMap fun x => callActs x)) := by
  suffices H : ∀ (r : Renderer ImageRenderer ReceiptImage) (images : List ReceiptImage), Resting r → Renderer.jobs gs ext jobs r = .ok images →
      ∃ calls, Spec.jobCalls ext jobs r.context = .ok calls ∧
        List.Forall₂ ShowsSheet images (calls.flatMap fun l => printedSheets gs 609 (l.flatMap fun x => callActs x)) from H _ _ Resting.new h
  clear h images
  induction jobs with
  | nil => intro r images _ h; simp only [Renderer.jobs, ok_ok] at h; subst h; exact ⟨[], rfl, .nil⟩
  | cons b bs ih =>
    intro r images hr h
    simp only [Renderer.jobs, bind_ok, pure_ok] at h
    obtain ⟨⟨outs, errs, r'⟩, h1, more, h2, rfl⟩ := h
    obtain ⟨hr', u, e, t, a1, a2, a3⟩ := hr.job h1
    obtain ⟨calls, b1, b2⟩ := ih r' more hr' h2
    refine ⟨t.child :: calls, ?_, ?_⟩
    · simp only [Spec.jobCalls, bind_ok, ok_ok]
      exact ⟨_, a1, calls, by rw [a2]; exact b1, rfl⟩
    · rw [List.flatMap_cons]
      exact List.rel_append a3 b2

/-! ### A job on a renderer that has been used -/

/-- An image is determined by the sheet it shows. -/
theorem ShowsSheet.unique {a b : ReceiptImage} {R : Roll} (ha : ShowsSheet a R) (hb : ShowsSheet b R) (sa : Sound a) (sb : Sound b) : a = b := by
  obtain ⟨a1, a2, a3, _⟩ := ha
  obtain ⟨b1, b2, b3, _⟩ := hb
  have ew : a.width = b.width := a1.trans b1.symm
  have eh : a.height = b.height := a2.trans b2.symm
  have la : a.bytes.length = 3 * (649 * a.height) := by rw [sa.size, a1]
  have lb : b.bytes.length = 3 * (649 * a.height) := by rw [sb.size, b1, eh]
  have eb : a.bytes = b.bytes := by
    apply List.ext_getElem?
    intro i
    by_cases hi : i < 3 * (649 * a.height)
    · have hmod := Nat.mod_lt i (show 0 < 3 by omega)
      have hmx := Nat.mod_lt (i / 3) (show 0 < 649 by omega)
      have e1 : i = 3 * (i / 3) + i % 3 := (Nat.div_add_mod i 3).symm
      have e2 : i / 3 = i / 3 / 649 * 649 + i / 3 % 649 := by rw [Nat.mul_comm]; exact (Nat.div_add_mod (i / 3) 649).symm
      generalize i % 3 = k at *
      generalize hj : i / 3 = j at *
      generalize j % 649 = x at *
      generalize j / 649 = y at *
      have hy : y < a.height := by
        by_cases hlt : y < a.height
        · exact hlt
        · have := Nat.mul_le_mul_right 649 (Nat.le_of_not_lt hlt)
          omega
      rw [e1, e2]
      by_cases hx : x < 20 ∨ 629 ≤ x
      · rw [sa.margin x y k hx hmx hy hmod, sb.margin x y k hx hmx (eh ▸ hy) hmod]
      · obtain ⟨p1, p2, p3⟩ := a3 (x - 20) y (by omega) hy
        obtain ⟨q1, q2, q3⟩ := b3 (x - 20) y (by omega) (eh ▸ hy)
        rw [show y * 649 + 20 + (x - 20) = y * 649 + x by omega] at p1 p2 p3 q1 q2 q3
        have : k = 0 ∨ k = 1 ∨ k = 2 := by omega
        rcases this with rfl | rfl | rfl
        · exact p1.trans q1.symm
        · exact p2.trans q2.symm
        · exact p3.trans q3.symm
    · rw [List.getElem?_eq_none (by omega), List.getElem?_eq_none (by omega)]
  obtain ⟨_, _, _⟩ := a
  obtain ⟨_, _, _⟩ := b
  dsimp only at ew eh eb
  subst ew eh eb
  rfl

theorem ShowsSheet.uniques {as bs : List ReceiptImage} {Rs : List Roll} (ha : List.Forall₂ ShowsSheet as Rs) (hb : List.Forall₂ ShowsSheet bs Rs)
    (sa : ∀ a ∈ as, Sound a) (sb : ∀ b ∈ bs, Sound b) : as = bs := by
  induction ha generalizing bs with
  | nil => cases hb; rfl
  | cons h _ ih =>
    cases hb with
    | cons h' hb =>
      rw [ShowsSheet.unique h h' (sa _ (by simp)) (sb _ (by simp)), ih hb (fun a ha => sa a (by simp [ha])) (fun a ha => sb a (by simp [ha]))]

/-- What `ESC @` as the first command leaves: nothing of what was there before. -/
theorem initialize_first {ext : Ext} {c : Context} {cmds : List Command} {t : Recording} (hc : c.default = some defaultSettings) (hn : NoPage c)
    (h : processCommands recorder ext (beginPrintCmd :: initializeCmd :: cmds) ⟨[], [], [], [], c⟩ = .ok t) :
    ∃ c1, processCommands recorder ext cmds
      ⟨[(c, .device .beginPrint), (c1, .beginRender), (Context.new, .device .initialize)], [], [], [], Context.new⟩ = .ok t := by
  simp only [processCommands, bind_ok] at h
  obtain ⟨r3, ha, r5, hi, h⟩ := h
  obtain ⟨r4, o, a1, a2, a3⟩ := control_step ha rfl
  simp only [processText, if_true, ok_ok] at a1
  subst a1
  simp only [getDevice, beginPrintCmd, getDeviceUnit, pure_ok] at a2
  subst a2
  simp only [Option.getD, deviceCommands, deviceCommand, recorder, bind_ok, pure_ok, ok_ok] at a3
  obtain ⟨_, ⟨_, rfl, c1, hc1, _, rfl, rfl⟩, rfl⟩ := a3
  refine ⟨c1, ?_⟩
  have hp := PenDown.newline hc1
  have hn1 := hn.pen hp
  have hd1 : c1.default = some defaultSettings := by
    obtain ⟨_, _, _, _, rfl, _⟩ := hp
    exact hc
  obtain ⟨r6, c2, o, b1, b2, b3, b4⟩ := contextControl_step hi rfl
  simp only [processText, if_true, ok_ok] at b1
  subst b1
  simp only [applyContext, initializeCmd, applyUnit, pure_ok] at b2
  simp only [getDevice, initializeCmd, getDeviceUnit, pure_ok] at b3
  subst b3
  have e2 : c2 = Context.new := by
    subst b2
    unfold Context.reset
    rw [hd1]
    unfold NoPage at hn1
    obtain ⟨⟨_, _, _, _, _⟩, _⟩ := c1
    dsimp only at hn1 hd1 ⊢
    subst hn1 hd1
    rfl
  simp only [Option.getD, deviceCommands, deviceCommand, recorder, bind_ok, pure_ok, ok_ok] at b4
  obtain ⟨_, ⟨_, rfl, rfl⟩, rfl⟩ := b4
  rw [← e2]
  exact h

theorem replay_recorder {xs : List (Context × Call)} {a : List (Context × Call)} {us : List Unit} :
    ∃ us', replay recorder xs (a, us) = .ok (a ++ xs, us') := by
  induction xs generalizing a us with
  | nil => exact ⟨us, by simp [replay]⟩
  | cons x xs ih =>
    obtain ⟨c, x⟩ := x
    have h1 : ∃ us1, Call.perform recorder (c, x) (a, us) = .ok (a ++ [(c, x)], us1) := by
      cases x <;> exact ⟨_, rfl⟩
    obtain ⟨us1, h1⟩ := h1
    obtain ⟨us2, h2⟩ := ih (a := a ++ [(c, x)]) (us := us1)
    refine ⟨us2, ?_⟩
    simp only [replay, bind_ok]
    exact ⟨_, h1, by rw [h2]; simp⟩

/-- What has been recorded does not matter. -/
theorem recorded_after {ext : Ext} {cmds : List Command} {xs : List (Context × Call)} {c : Context} {t : Recording}
    (h : processCommands recorder ext cmds ⟨xs, [], [], [], c⟩ = .ok t) :
    ∃ t', processCommands recorder ext cmds ⟨[], [], [], [], c⟩ = .ok t' ∧ t.child = xs ++ t'.child := by
  obtain ⟨t', h1, h2⟩ := processCommands_rec (Rec.start (R := recorder) (r := ⟨xs, [], [], [], c⟩)) h
  refine ⟨t', h1, ?_⟩
  have := h2.calls
  obtain ⟨us, e⟩ := replay_recorder (xs := t'.child) (a := xs) (us := [])
  rw [e, ok_ok] at this
  exact (Prod.mk.inj this).1.symm

/-- The sheets of a job that begins with `ESC @` do not depend on where and how it begins. -/
theorem initialized_sheets {gs : Canvas.Glyphs} {ext : Ext} {c c' : Context} {bytes : List Byte} {u e t u' e' t'}
    (hc : c.default = some defaultSettings) (hn : NoPage c) (hc' : c'.default = some defaultSettings) (hn' : NoPage c')
    (h : render recorder ext ⟨[], [], [], [], c⟩ (27 :: 64 :: bytes) = .ok (u, e, t))
    (h' : render recorder ext ⟨[], [], [], [], c'⟩ (27 :: 64 :: bytes) = .ok (u', e', t')) :
    printedSheets gs 609 (t.child.flatMap fun x => callActs x) = printedSheets gs 609 (t'.child.flatMap fun x => callActs x) := by
  simp only [render, bind_ok, pure_ok] at h h'
  obtain ⟨cmds, h1, r1, h2, h3⟩ := h
  obtain ⟨cmds', h1', r1', h2', h3'⟩ := h'
  rw [h1, ok_ok] at h1'
  subst h1'
  simp only [Prod.mk.injEq] at h3 h3'
  obtain ⟨_, _, rfl⟩ := h3
  obtain ⟨_, _, rfl⟩ := h3'
  obtain ⟨rest, rfl⟩ := parse_initialize h1
  obtain ⟨c1, a⟩ := initialize_first hc hn h2
  obtain ⟨c1', a'⟩ := initialize_first hc' hn' h2'
  obtain ⟨x, b1, b2⟩ := recorded_after a
  obtain ⟨x', b1', b2'⟩ := recorded_after a'
  rw [b1, ok_ok] at b1'
  subst b1'
  dsimp only
  unfold printedSheets
  rw [← calls_step, ← calls_step, b2, b2']
  simp only [List.cons_append, List.nil_append, List.foldl_cons, begin_sheet]

/-- Renderers between jobs, with what is needed for the image of a job: also `Renderer.BetweenJobs`. -/
theorem jobs_append {gs : Canvas.Glyphs} {ext : Ext} {xs ys : List (List Byte)} {r : Renderer ImageRenderer ReceiptImage} {images}
    (hr : Resting r) (hb : r.BetweenJobs) (hn : NoPage r.context)
    (hno : ∀ b ∈ xs, ∀ cmds, parseEscPos b = .ok cmds → ∀ c ∈ cmds, c.commands ≠ [27, 76])
    (h : Renderer.jobs gs ext (xs ++ ys) r = .ok images) :
    ∃ before after r', Resting r' ∧ r'.BetweenJobs ∧ NoPage r'.context ∧ Renderer.jobs gs ext xs r = .ok before ∧
      Renderer.jobs gs ext ys r' = .ok after ∧ images = before ++ after := by
  induction xs generalizing r images with
  | nil => exact ⟨[], images, r, hr, hb, hn, rfl, h, rfl⟩
  | cons b bs ih =>
    simp only [List.cons_append, Renderer.jobs, bind_ok, pure_ok] at h
    obtain ⟨⟨outs, errs, r'⟩, h1, more, h2, rfl⟩ := h
    obtain ⟨hr', _⟩ := hr.job h1
    obtain ⟨hb', _⟩ := image_job hb h1
    have hn' : NoPage r'.context := by
      simp only [render, bind_ok, pure_ok] at h1
      obtain ⟨cmds, p1, r1, p2, p3⟩ := h1
      simp only [Prod.mk.injEq] at p3
      obtain ⟨_, _, rfl⟩ := p3
      show NoPage r1.context
      exact NoPage.commands (parse_known p1) (hno b (by simp) cmds p1) hn p2
    obtain ⟨before, after, r'', k1, k2, k3, k4, k5, rfl⟩ := ih hr' hb' hn' (fun b hm => hno b (by simp [hm])) h2
    refine ⟨outs ++ before, after, r'', k1, k2, k3, ?_, k5, by simp⟩
    simp only [Renderer.jobs, bind_ok, pure_ok]
    exact ⟨_, h1, before, k4, rfl⟩

/-- C88 (partial). A job that begins with `ESC @`, printed after other jobs none of which uses page mode (`ESC L`), gives the very images that it gives
when it is printed alone.  Missing with respect to the full claim, because the code does not satisfy it: jobs that do not begin with `ESC @`
(`C88_position_stays`, `C88_style_stays`), and jobs after a job that ended in page mode (`C88_page_mode_stays`). -/
theorem C88_initialized_partial (gs : Canvas.Glyphs) (ext : Ext) (earlier : List (List Byte)) (job : List Byte) (images alone : List ReceiptImage)
    (hno : ∀ b ∈ earlier, ∀ cmds, parseEscPos b = .ok cmds → ∀ c ∈ cmds, c.commands ≠ [27, 76])
    (hjob : [27, 64] <+: job)
    (h : Renderer.jobs gs ext (earlier ++ [job]) (Renderer.new (ImageRenderer.new {})) = .ok images)
    (h' : Renderer.jobs gs ext [job] (Renderer.new (ImageRenderer.new {})) = .ok alone) :
    ∃ before, Renderer.jobs gs ext earlier (Renderer.new (ImageRenderer.new {})) = .ok before ∧ images = before ++ alone := by
  obtain ⟨bytes, rfl⟩ := hjob
  have b0 : (Renderer.new (ImageRenderer.new {}) : Renderer ImageRenderer ReceiptImage).BetweenJobs := ⟨ready_new {}, OnPaper.start, rfl⟩
  obtain ⟨before, after, r', k1, k2, k3, k4, k5, rfl⟩ := jobs_append Resting.new b0 rfl hno h
  refine ⟨before, k4, ?_⟩
  have e : after = alone := by
    simp only [Renderer.jobs, bind_ok, pure_ok, ok_ok] at k5 h'
    obtain ⟨⟨outs, errs, r2⟩, p1, _, rfl, rfl⟩ := k5
    obtain ⟨⟨outs', errs', r3⟩, q1, _, rfl, rfl⟩ := h'
    obtain ⟨_, u, x, t, p2, _, p3⟩ := k1.job p1
    obtain ⟨_, u', x', t', q2, _, q3⟩ := Resting.new.job q1
    rw [List.append_nil, List.append_nil]
    refine ShowsSheet.uniques p3 ?_ (image_job k2 p1).2 (image_job b0 q1).2
    rw [initialized_sheets k1.paper.default k3 OnPaper.start.default rfl p2 q2]
    exact q3
  rw [e]

/-- The full claim is false: the position stays.  Two jobs with nothing in them give sheets of 108 and 156 dots (with whatever glyphs). -/
theorem C88_position_stays : ∃ calls, Spec.jobCalls noExt [[], []] Context.new = .ok calls ∧
    ∀ gs, calls.map (fun l => (printedSheets gs 609 (l.flatMap fun x => callActs x)).map (·.reach)) = [[108], [156]] :=
  ⟨_, rfl, fun _ => rfl⟩

/-- So the images differ from those of the jobs printed alone. -/
theorem C88_full_claim_false (gs : Canvas.Glyphs) (images alone : List ReceiptImage)
    (h : Renderer.jobs gs noExt [[], []] (Renderer.new (ImageRenderer.new {})) = .ok images)
    (h' : Renderer.jobs gs noExt [[]] (Renderer.new (ImageRenderer.new {})) = .ok alone) : images ≠ alone ++ alone := by
  obtain ⟨calls, a1, a2⟩ := C88_jobs gs noExt _ _ h
  obtain ⟨calls', b1, b2⟩ := C88_jobs gs noExt _ _ h'
  have c1 : ∃ calls, Spec.jobCalls noExt [[], []] Context.new = .ok calls ∧
      (calls.flatMap fun l => printedSheets gs 609 (l.flatMap fun x => callActs x)).map (·.reach) = [108, 156] := ⟨_, rfl, rfl⟩
  have c2 : ∃ calls, Spec.jobCalls noExt [[]] Context.new = .ok calls ∧
      (calls.flatMap fun l => printedSheets gs 609 (l.flatMap fun x => callActs x)).map (·.reach) = [108] := ⟨_, rfl, rfl⟩
  have heights : ∀ {is : List ReceiptImage} {Rs : List Roll}, List.Forall₂ ShowsSheet is Rs → is.map (·.height) = Rs.map (·.reach) := by
    intro is Rs h
    induction h with
    | nil => rfl
    | cons h _ ih => rw [List.map_cons, List.map_cons, ih, h.2.1]
  obtain ⟨x, x1, x2⟩ := c1
  obtain ⟨y, y1, y2⟩ := c2
  rw [a1, ok_ok] at x1
  rw [b1, ok_ok] at y1
  subst x1 y1
  have e1 := heights a2
  have e2 := heights b2
  rw [x2] at e1
  rw [y2] at e2
  rintro rfl
  rw [List.map_append, e2] at e1
  revert e1
  decide

/-- The style stays: after `ESC E 1`, which makes text bold, the text of the next job is bold. -/
theorem C88_style_stays : ∃ calls, Spec.jobCalls noExt [[27, 69, 1, 65], [66]] Context.new = .ok calls ∧
    calls.map (fun l => (l.flatMap (·.2.spans)).map fun t => (t.text, t.bold)) = [[("A".toList, true)], [("B".toList, true)]] :=
  ⟨_, rfl, by decide +kernel⟩

/-- Page mode stays: after a job that ends in page mode, the next job is in page mode, and its text is not on the paper - even if it begins with `ESC @`. -/
theorem C88_page_mode_stays : ∃ calls, Spec.jobCalls noExt [[27, 76, 27, 87, 0, 0, 0, 0, 100, 0, 60, 0], [27, 64, 66]] Context.new = .ok calls ∧
    calls.map (fun l => (l.filter fun x => x.2.spans ≠ []).map fun x => x.1.pageMode.enabled) = [[], [true]] :=
  ⟨_, rfl, by decide +kernel⟩

/-- Three jobs that meet the hypotheses: bold text and a line spacing; `ESC @` and text; and what comes back of parsing them. -/
example : (∀ b ∈ [[27, 69, 1, 65, 10], [27, 51, 10, 66]], ∃ cmds, parseEscPos b = .ok cmds ∧ ∀ c ∈ cmds, c.commands ≠ [27, 76]) ∧
    [27, 64] <+: ([27, 64, 66, 10] : List Byte) ∧
    ∃ calls, Spec.jobCalls noExt [[27, 69, 1, 65, 10], [27, 51, 10, 66], [27, 64, 66, 10]] Context.new = .ok calls ∧
      ∀ gs, calls.map (fun l => (printedSheets gs 609 (l.flatMap fun x => callActs x)).length) = [1, 1, 1] := by
  refine ⟨?_, by decide, _, rfl, fun _ => rfl⟩
  intro b hb
  simp only [List.mem_cons, List.not_mem_nil, or_false] at hb
  rcases hb with rfl | rfl
  · exact ⟨_, rfl, by decide +kernel⟩
  · exact ⟨_, rfl, by decide +kernel⟩

end Thermal
