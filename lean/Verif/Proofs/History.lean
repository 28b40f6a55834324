import Verif.Proofs.Pen
/-
What commands do to the context, as one relation per command.
-/
namespace Thermal
namespace Renderer
variable {σ Out : Type} {R : OutputRenderer σ Out} {ext : Ext}

/-- The effect of a device command on the context. -/
def deviceContext (d : DeviceCommand) (c : Context) : Rs Context :=
  match d with
  | .setTextWidth w => .ok (c.modText fun t => { t with widthMult := w })
  | .setTextHeight h => .ok (c.modText fun t => { t with heightMult := h })
  | .justify j => .ok (c.modText fun t => { t with justify := j })
  | .beginPrint => c.newline 2
  | .feedLine n => c.newline (asU32 n)
  | .feed n => c.feed (asU32 n)
  | .fullCut | .partialCut => c.newline 2
  | .beginPageMode => .ok (c.modPage fun p => { p with enabled := true })
  | .endPageMode => .ok (c.modPage fun p => { p with enabled := false })
  | .printPageMode => do
    let y ← addU32 c.graphics.renderArea.y c.pageMode.pageArea.h
    .ok (c.modGraphics fun g => { g with renderArea := { g.renderArea with y := y, x := 0 } })
  | .changePageArea => do
    let (p, _) ← ({ c.pageMode with previousDirection := c.pageMode.direction } : PageModeContext).applyLogicalArea
    .ok { c with pageMode := p }
  | .changePageModeDirection => do
    let (p, _) ← c.pageMode.applyLogicalArea
    .ok { c with pageMode := p }
  | .changeTabs n k => .ok (c.setTabLen n k)
  | .clearBufferGraphics => .ok (c.modGraphics fun g => { g with bufferGraphics := [] })
  | _ => .ok c

theorem pageAreaChanged_context {r r' : Renderer σ Out} (h : pageAreaChanged R r = .ok r') :
    (∃ p x, r.context.pageMode.applyLogicalArea = .ok (p, x) ∧ r'.context = { r.context with pageMode := p }) ∧
    r'.spanBuffer = r.spanBuffer ∧ r'.outputBuffer = r.outputBuffer ∧ r'.errorBuffer = r.errorBuffer := by
  simp only [pageAreaChanged, bind_ok, pure_ok] at h
  obtain ⟨⟨p, rot, w, hh⟩, h1, s, _, rfl⟩ := h
  exact ⟨⟨p, _, h1, rfl⟩, rfl, rfl, rfl⟩

theorem deviceCommand_context {r r' : Renderer σ Out} {d} (h : deviceCommand R r d = .ok r') :
    deviceContext d r.context = .ok r'.context ∧ r'.spanBuffer = r.spanBuffer := by
  simp only [deviceCommand, bind_ok] at h
  obtain ⟨s, _, h⟩ := h
  cases d <;> simp only [bind_ok, pure_ok] at h <;> simp only [deviceContext, bind_ok, ok_ok]
  case beginPrint => obtain ⟨c, h1, s, _, rfl⟩ := h; exact ⟨h1, rfl⟩
  case endPrint => obtain ⟨⟨s, o⟩, _, rfl⟩ := h; exact ⟨rfl, rfl⟩
  case feedLine => obtain ⟨c, h1, rfl⟩ := h; exact ⟨h1, rfl⟩
  case feed => obtain ⟨c, h1, rfl⟩ := h; exact ⟨h1, rfl⟩
  case fullCut => obtain ⟨c, h1, rfl⟩ := h; exact ⟨h1, rfl⟩
  case partialCut => obtain ⟨c, h1, rfl⟩ := h; exact ⟨h1, rfl⟩
  case beginPageMode => obtain ⟨c, h1, rfl⟩ := h; exact ⟨rfl, rfl⟩
  case endPageMode => obtain ⟨c, h1, rfl⟩ := h; exact ⟨rfl, rfl⟩
  case printPageMode => obtain ⟨s, _, y, h1, rfl⟩ := h; exact ⟨⟨y, h1, rfl⟩, rfl⟩
  case changePageArea =>
    obtain ⟨⟨p, x, h1, h2⟩, h3, _, _⟩ := pageAreaChanged_context h
    exact ⟨⟨_, h1, h2.symm⟩, h3⟩
  case changePageModeDirection =>
    obtain ⟨⟨p, x, h1, h2⟩, h3, _, _⟩ := pageAreaChanged_context h
    exact ⟨⟨_, h1, h2.symm⟩, h3⟩
  all_goals (subst h; exact ⟨rfl, rfl⟩)

/-- A reflexive, transitive relation that holds for every device command of a list holds for the list. -/
theorem deviceCommands_rel {P : Context → Context → Prop} (hr : ∀ c, P c c) (ht : ∀ {a b c}, P a b → P b c → P a c)
    {ds : List DeviceCommand} (hd : ∀ d ∈ ds, ∀ c c', deviceContext d c = .ok c' → P c c')
    {r r' : Renderer σ Out} (h : deviceCommands R ds r = .ok r') :
    P r.context r'.context ∧ r'.spanBuffer = r.spanBuffer := by
  induction ds generalizing r with
  | nil => simp only [deviceCommands, ok_ok] at h; subst h; exact ⟨hr _, rfl⟩
  | cons d ds ih =>
    simp only [deviceCommands, bind_ok] at h
    obtain ⟨r1, h1, h2⟩ := h
    have a := deviceCommand_context h1
    have b := ih (fun d hd' => hd d (List.mem_cons_of_mem _ hd')) h2
    exact ⟨ht (hd d (by simp) _ _ a.1) b.1, b.2.trans a.2⟩

/-- The parts of processing a command, for a reflexive and transitive relation on contexts. -/
theorem processCommand_rel {P : Context → Context → Prop} (hr : ∀ c, P c c) (ht : ∀ {a b c}, P a b → P b c → P a c)
    (hpen : ∀ {c c'}, PenDown c c' → P c c') {cmd : Command}
    (happ : ∀ {c c'}, applyContext ext cmd c = .ok c' → P c c')
    (hd : ∀ {c ds}, getDevice cmd c = .ok (some ds) → ∀ d ∈ ds, ∀ c c', deviceContext d c = .ok c' → P c c')
    {r r' : Renderer σ Out} (h : processCommand R ext r cmd = .ok r') : P r.context r'.context := by
  have hdev : ∀ {c o} {r r' : Renderer σ Out}, getDevice cmd c = .ok o → deviceCommands R (o.getD []) r = .ok r' →
      P r.context r'.context := by
    intro c o r r' h1 h2
    cases o with
    | none => exact (deviceCommands_rel hr ht (by simp) h2).1
    | some ds => exact (deviceCommands_rel hr ht (hd h1) h2).1
  unfold processCommand at h
  split at h
  · simp only [bind_ok, pure_ok] at h
    obtain ⟨r1, h1, rfl⟩ := h
    exact hpen (processText_quiet h1).4
  · simp only [bind_ok] at h
    obtain ⟨o, h1, h⟩ := h
    split at h
    · rw [pure_ok] at h; subst h; exact hr _
    · rw [pure_ok] at h; subst h; exact hr _
  · simp only [bind_ok] at h
    obtain ⟨r1, h1, g, h2, r2, h3, o, h4, h5⟩ := h
    refine ht (hpen (processText_quiet h1).4) (ht ?_ (hdev h4 h5))
    unfold processGraphicsOpt at h3
    split at h3
    · exact hpen (processGraphics_context (processText_quiet h1).3 h3).1
    · rw [ok_ok] at h3; subst h3; exact hr _
  · simp only [bind_ok, pure_ok] at h
    obtain ⟨r1, h1, c, h2, rfl⟩ := h
    exact ht (hpen (processText_quiet h1).4) (happ h2)
  · simp only [bind_ok] at h
    obtain ⟨r1, h1, c, h2, o, h3, h4⟩ := h
    exact ht (hpen (processText_quiet h1).4) (ht (happ h2) (hdev h3 h4))
  · simp only [bind_ok] at h
    obtain ⟨o, h3, r1, h1, h4⟩ := h
    exact ht (hpen (processText_quiet h1).4) (hdev h3 h4)
  · simp only [bind_ok] at h
    obtain ⟨c, h2, o, h3, h4⟩ := h
    exact ht (happ h2) (hdev h3 h4)
  · rw [pure_ok] at h; subst h; exact hr _

/-- The same over a history of commands. -/
theorem processCommands_rel {P : Context → Context → Prop} (hr : ∀ c, P c c) (ht : ∀ {a b c}, P a b → P b c → P a c)
    {cmds : List Command}
    (hc : ∀ cmd ∈ cmds, ∀ (r r' : Renderer σ Out), processCommand R ext r cmd = .ok r' → P r.context r'.context)
    {r r' : Renderer σ Out} (h : processCommands R ext cmds r = .ok r') : P r.context r'.context := by
  induction cmds generalizing r with
  | nil => simp only [processCommands, ok_ok] at h; subst h; exact hr _
  | cons d ds ih =>
    simp only [processCommands, bind_ok] at h
    obtain ⟨r1, h1, h2⟩ := h
    exact ht (hc d (by simp) _ _ h1) (ih (fun d hd' => hc d (List.mem_cons_of_mem _ hd')) h2)

theorem processCommands_append {xs ys : List Command} {r : Renderer σ Out} :
    processCommands R ext (xs ++ ys) r = (do processCommands R ext ys (← processCommands R ext xs r)) := by
  induction xs generalizing r with
  | nil => rfl
  | cons x xs ih =>
    simp only [List.cons_append, processCommands]
    cases processCommand R ext r x with
    | error e => rfl
    | ok r1 => simp only [bind, Except.bind]; exact ih

end Renderer
end Thermal
