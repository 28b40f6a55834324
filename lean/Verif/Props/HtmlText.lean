import Verif.Props.HtmlDocument
import Verif.Props.PrintedText
/-
C74: from the bytes of a stream to the text a reader sees.
-/
namespace Thermal
open Html Spec Renderer

/-- Device commands that neither start nor finish a document and do not enter page mode nor print a page. -/
def Plain (d : DeviceCommand) : Prop := d ≠ .beginPrint ∧ d ≠ .endPrint ∧ d ≠ .beginPageMode ∧ d ≠ .printPageMode

theorem getDevice_plain {cmd : Command} {c : Context} {o} (hs : c.pageMode.enabled = false) (h : getDevice cmd c = .ok o)
    (h0 : cmd.handler ≠ .unit .beginPrint) (h1 : cmd.handler ≠ .unit .endPrint) (h2 : cmd.handler ≠ .unit .formfeed)
    (h3 : cmd.handler ≠ .unit .setPageMode) : ∀ d ∈ o.getD [], Plain d := by
  unfold getDevice at h
  split at h
  · rename_i id hh
    rw [hh] at h0 h1 h2 h3
    cases id <;> simp only [getDeviceUnit, pure_ok] at h
    case beginPrint => exact absurd rfl h0
    case endPrint => exact absurd rfl h1
    case formfeed => exact absurd rfl h2
    case setPageMode => exact absurd rfl h3
    case setTabLen =>
      simp only [bind_ok, pure_ok] at h; obtain ⟨l, _, rfl⟩ := h
      simp [Plain]
    case feedAndCut =>
      repeat' split at h
      all_goals simp only [pure_ok] at h
      all_goals (subst h; simp [Plain])
    case pageModePrintData => rw [hs] at h; simp only [Bool.false_eq_true, if_false] at h; (rw [pure_ok] at h; subst h; simp [Plain])
    case selectStandardMode => split at h <;> (rw [pure_ok] at h; subst h; simp [Plain])
    all_goals (subst h; simp [Plain])
  · rw [pure_ok] at h; subst h; simp [Plain]
  · rw [pure_ok] at h; subst h; simp [Plain]
  all_goals (first | (rw [pure_ok] at h; subst h; simp [Plain]) | skip)

/-- Not in page mode. -/
def Standard (c : Context) : Prop := c.pageMode.enabled = false

theorem Standard.device {d : DeviceCommand} {c c' : Context} (hd : Plain d) (h : deviceContext d c = .ok c') (hc : Standard c) : Standard c' := by
  by_cases he : d = .endPageMode
  · subst he
    simp only [deviceContext, ok_ok] at h
    subst h; rfl
  · have key : Setting.pageEnabled ∉ deviceWrites d := by
      obtain ⟨h1, h2, h3, _⟩ := hd
      cases d <;> first | exact absurd rfl h3 | exact absurd rfl he | (simp only [deviceWrites]; decide)
    exact (deviceContext_only h .pageEnabled key).trans hc

theorem Standard.apply {ext : Ext} {cmd : Command} {c c' : Context} (h : applyContext ext cmd c = .ok c') (hc : Standard c) : Standard c' := by
  by_cases hs : cmd.handler = .unit .selectStandardMode
  · simp only [applyContext, hs, applyUnit, pure_ok] at h
    subst h; rfl
  · have n1 : ∀ h : Hid, h ≠ .selectStandardMode → Setting.pageEnabled ∉ applyWrites h := by intro h; cases h <;> decide
    have n2 : ∀ h : SubId, Setting.pageEnabled ∉ subWrites h := by intro h; cases h <;> decide
    have n3 : Setting.pageEnabled ∉ handlerWrites cmd.handler := by
      unfold handlerWrites; split
      · rename_i id hh; exact n1 _ (fun he => hs (by rw [hh, he]))
      · exact n2 _
      · decide
      · split
        · exact n2 _
        · decide
      · decide
    exact (applyContext_only h .pageEnabled n3).trans hc

/-- All calls of a job without page mode and form feeds: the document is started, filled and finished. -/
theorem one_sheet {ext : Ext} {bytes : List Byte} {cmds : List Command} {outs errs} {t : Recording} (hp : parseEscPos bytes = .ok cmds)
    (hf : ∀ c ∈ cmds, c.commands ≠ [12] ∧ c.commands ≠ [27, 76])
    (h : render recorder ext (Renderer.new []) bytes = .ok (outs, errs, t)) :
    ∃ c0 c1 c2 c3 calls, t.child = (c0, .device .beginPrint) :: (c1, .beginRender) :: calls ++ [(c2, .device .endPrint), (c3, .endRender)] ∧
      ∀ x ∈ calls, Fair Standard Plain x := by
  simp only [render, bind_ok, pure_ok] at h
  obtain ⟨cmds', h1, r1, h2, h3⟩ := h
  rw [hp, ok_ok] at h1; subst h1
  simp only [Prod.mk.injEq] at h3
  obtain ⟨_, _, rfl⟩ := h3
  obtain ⟨mid, hm, hb⟩ := parseEscPos_framed hp
  have hk := parse_known hp
  rw [hm] at h2 hk hf
  rw [processCommands_append, bind_ok] at h2
  obtain ⟨r2, ha, hz⟩ := h2
  simp only [processCommands, bind_ok] at ha
  obtain ⟨r3, ha, hb'⟩ := ha
  obtain ⟨r4, o, a1, a2, a3⟩ := control_step ha rfl
  have e4 : r4 = Renderer.new [] := by
    simp only [processText, Renderer.new, if_true, ok_ok] at a1
    exact a1.symm
  subst e4
  simp only [getDevice, beginPrintCmd, getDeviceUnit, pure_ok] at a2
  subst a2
  simp only [Option.getD, deviceCommands, deviceCommand, recorder, bind_ok, pure_ok, ok_ok] at a3
  obtain ⟨_, ⟨_, rfl, c1, hc1, _, rfl, rfl⟩, rfl⟩ := a3
  have hmid : ∀ cmd ∈ mid, ∀ {c o}, Standard c → getDevice cmd c = .ok o → ∀ d ∈ o.getD [], Plain d := by
    intro cmd hcm c o hsc ho
    have hkk := hk cmd (by simp [hcm])
    have hff := hf cmd (by simp [hcm])
    refine getDevice_plain hsc ho (hb cmd hcm).1 (hb cmd hcm).2 ?_ ?_
    · intro hh
      obtain ⟨base, hb1, hd, hh'⟩ := known_handler hkk hh
      rw [(base_handlers base hb1).1 hh'] at hd
      exact hff.1 hd.commands
    · intro hh
      obtain ⟨base, hb1, hd, hh'⟩ := known_handler hkk hh
      rw [(base_handlers base hb1).2.1 hh'] at hd
      exact hff.2 hd.commands
  have hr3 : Handed Standard Plain [(Context.new, Call.device .beginPrint), (c1, .beginRender)]
      ⟨[(Context.new, Call.device .beginPrint), (c1, .beginRender)], [], [], [], c1⟩ :=
    ⟨InU32.start.newline hc1, by rw [Standard, penDown_enabled (PenDown.newline hc1)]; rfl, [], by simp, by simp⟩
  have hr2 := processCommands_handed (fun h1 h2 => by rw [Standard, penDown_enabled h1]; exact h2) Standard.device (fun cmd hm => hmid cmd hm) Standard.apply hr3 hb'
  simp only [processCommands, bind_ok, ok_ok] at hz
  obtain ⟨_, hz, rfl⟩ := hz
  obtain ⟨r5, o, b1, b2, b3⟩ := control_step hz rfl
  have hr5 := processText_handed (fun h1 h2 => by rw [Standard, penDown_enabled h1]; exact h2) hr2 b1
  simp only [getDevice, endPrintCmd, getDeviceUnit, pure_ok] at b2
  subst b2
  simp only [Option.getD, deviceCommands, deviceCommand, recorder, bind_ok, pure_ok, ok_ok] at b3
  obtain ⟨_, ⟨_, rfl, _, rfl, rfl⟩, rfl⟩ := b3
  obtain ⟨calls, e, hc⟩ := hr5.calls
  refine ⟨Context.new, c1, r5.context, r5.context, calls, ?_, hc⟩
  show r5.child ++ _ ++ _ = _
  rw [e]; simp

theorem sheets_fair {calls : List (Context × Call)} (h : ∀ x ∈ calls, Fair Standard Plain x) (s : List (Context × Call)) (c2 c3 : Context) :
    ∃ s', sheets s (calls ++ [(c2, .device .endPrint), (c3, .endRender)]) = [s'] ∧
      sheetText s' = sheetText s ++ (calls.flatMap (·.2.spans)).flatMap (·.text) := by
  induction calls generalizing s with
  | nil => exact ⟨s, rfl, by simp⟩
  | cons x xs ih =>
    have hx := h x (by simp)
    obtain ⟨c, k⟩ := x
    have hk : ∀ s1 : List (Context × Call), sheetText s1 = sheetText s ++ k.spans.flatMap (·.text) →
        sheets s ((c, k) :: xs ++ [(c2, .device .endPrint), (c3, .endRender)]) = sheets s1 (xs ++ [(c2, .device .endPrint), (c3, .endRender)]) →
        ∃ s', sheets s ((c, k) :: xs ++ [(c2, .device .endPrint), (c3, .endRender)]) = [s'] ∧
          sheetText s' = sheetText s ++ (((c, k) :: xs).flatMap (·.2.spans)).flatMap (·.text) := by
      intro s1 e1 e2
      obtain ⟨s', a, b⟩ := ih (fun y hy => h y (by simp [hy])) s1
      refine ⟨s', by rw [e2, a], ?_⟩
      rw [b, e1]; simp
    have hc : c.pageMode.enabled = false := hx.context
    cases k
    case beginRender => exact absurd rfl (hx.begins rfl).1
    case endRender => exact absurd rfl (hx.ends rfl).2.1
    case renderPage => exact hk (s ++ [(c, .renderPage)]) (by simp [sheetText]) rfl
    case text l o m j =>
      refine hk (s ++ [(c, .text l o m j)]) (by simp [sheetText]) ?_
      simp [sheets, hc]
    case graphics gs =>
      refine hk (s ++ [(c, .graphics gs)]) (by simp [sheetText]) ?_
      simp [sheets, hc]
    case image i =>
      refine hk (s ++ [(c, .image i)]) (by simp [sheetText]) ?_
      simp [sheets, hc]
    all_goals exact hk s (by simp [Call.spans]) rfl

theorem looks_text (ts : List TextSpan) : (ts.flatMap looks).map (·.1) = ts.flatMap (·.text) := by
  induction ts with
  | nil => rfl
  | cons t ts ih =>
    rw [List.flatMap_cons, List.map_append, ih, List.flatMap_cons]
    congr 1
    rw [looks, List.map_map]
    exact List.map_id _

theorem chars_filter (l : List (Char × CharLook)) :
    (l.filter (fun p => !isControl p.1)).map (·.1) = (l.map (·.1)).filter (fun c => !isControl c) := by
  rw [List.filter_map]; rfl

/-- C74, from the bytes to the screen. A stream without form feeds, page mode and barcode captions, whose style commands do what the command
reference says (`conforms`, C70), gives exactly one document, and the text a reader sees in it, line feeds and tabs aside, is exactly the text of
the stream in order, every byte read in the code table and character set in force.  Text must not contain `<` and `{`, which the program does
not escape. -/
theorem C74_stream_partial : ∃ head : Str, ∀ (gs : Canvas.Glyphs) (png : Png) (ext : Ext) (d : Debug) (bytes : List Byte) (cmds : List Command)
    (outs errs r), parseEscPos bytes = .ok cmds → Style.initial.conforms cmds →
    (∀ c ∈ cmds, c.commands ≠ [29, 72] ∧ c.commands ≠ [12] ∧ c.commands ≠ [27, 76]) →
    render (htmlRenderer gs png) ext (Renderer.new (HtmlRenderer.new d)) bytes = .ok (outs, errs, r) →
    (∀ w h b, '{' ∉ png w h b ∧ '>' ∉ png w h b) → (∀ p ∈ printed .initial cmds, p.1 ≠ '{' ∧ p.1 ≠ '<') →
    ∃ style article, outs = [head ++ "\"".toList ++ style ++ "\"><article>".toList ++ article ++
        "</article></section></main>\n</body>\n</html>".toList] ∧
      (visible false article).filter (fun c => !isControl c) = ((printed .initial cmds).map (·.1)).filter (fun c => !isControl c) := by
  obtain ⟨head, hh⟩ := C74_reads_partial
  refine ⟨head, ?_⟩
  intro gs png ext d bytes cmds outs errs r hp hd hf h hpng ht
  obtain ⟨u, e, t, a1, a2, _⟩ := C68_same_calls _ ext _ bytes outs errs r h
  have e71 := C71_printed hp hd (fun c hc => (hf c hc).1) a1
  obtain ⟨c0, c1, c2, c3, calls, ec, hc⟩ := one_sheet hp (fun c hc => (hf c hc).2) a1
  obtain ⟨s', es, et⟩ := sheets_fair hc [(c1, .beginRender)] c2 c3
  have esh : sheets [] t.child = [s'] := by rw [ec, ← es]; rfl
  have etx : sheetText s' = (t.child.flatMap (·.2.spans)).flatMap (·.text) := by
    rw [et, ec]; simp [sheetText, Call.spans]
  have hclean : ∀ x ∈ t.child, ∀ s ∈ x.2.spans, '{' ∉ s.text ∧ '<' ∉ s.text := by
    intro x hx s hs
    have key : ∀ c ∈ s.text, !isControl c → c ≠ '{' ∧ c ≠ '<' := by
      intro c hcm hn
      have : (c, lookOf s) ∈ ((t.child.flatMap (·.2.spans)).flatMap looks).filter (fun p => !isControl p.1) := by
        refine List.mem_filter.2 ⟨?_, hn⟩
        exact List.mem_flatMap.2 ⟨s, List.mem_flatMap.2 ⟨x, hx, hs⟩, List.mem_map.2 ⟨c, hcm, rfl⟩⟩
      rw [e71] at this
      exact ht _ (List.mem_filter.1 this).1
    exact ⟨fun hm => (key _ hm (by decide)).1 rfl, fun hm => (key _ hm (by decide)).2 rfl⟩
  have := hh gs png ext d bytes outs errs r u e t h a1 hpng hclean
  rw [esh] at this
  cases this with
  | cons h1 h2 =>
    cases h2
    obtain ⟨style, article, e1, e2⟩ := h1
    refine ⟨style, article, by rw [e1], ?_⟩
    have hcc : ∀ l : Str, (l.filter (· ≠ '\n')).filter (fun c => !isControl c) = l.filter (fun c => !isControl c) := by
      intro l
      rw [List.filter_filter]
      congr 1; funext c
      by_cases hc : c = '\n' <;> simp [isControl, hc]
    rw [← hcc, e2, hcc, etx, ← looks_text]
    have := congrArg (List.map Prod.fst) e71
    rw [show List.map Prod.fst = List.map (fun p : Char × CharLook => p.1) from rfl, chars_filter, chars_filter] at this
    exact this

/-- `C74_stream_partial` on "Hi", `ESC E 1`, the byte 9B on PC850 (a small o with stroke), LF, `GS ! 0x11`, "b". -/
example : ∃ cmds outs errs r, parseEscPos [27, 116, 2, 72, 105, 27, 69, 1, 0x9B, 10, 29, 33, 17, 98] = .ok cmds ∧
    Style.initial.conforms cmds ∧ (∀ c ∈ cmds, c.commands ≠ [29, 72] ∧ c.commands ≠ [12] ∧ c.commands ≠ [27, 76]) ∧
    render (htmlRenderer noGlyphs noPng) noExt (Renderer.new HtmlRenderer.new) [27, 116, 2, 72, 105, 27, 69, 1, 0x9B, 10, 29, 33, 17, 98] = .ok (outs, errs, r) ∧
    (∀ p ∈ printed .initial cmds, p.1 ≠ '{' ∧ p.1 ≠ '<') ∧
    ((printed .initial cmds).map (·.1)).filter (fun c => !isControl c) = "Hiøb".toList := by
  refine ⟨_, _, _, _, rfl, ?_, ?_, rfl, ?_, ?_⟩ <;> decide +kernel

end Thermal
