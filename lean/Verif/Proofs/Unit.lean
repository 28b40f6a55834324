import Verif.Proofs.Known
import Verif.Proofs.Touch
/-
Processing a command with an entry of its own in the table, by its opcode.
-/
namespace Thermal
open Renderer

theorem opcode_unique : ∀ a ∈ baseCommands ++ [beginPrintCmd, endPrintCmd], ∀ b ∈ escPosCommands, a.commands = b.commands → a = b := by
  decide +kernel

theorem opcode_length : ∀ b ∈ escPosCommands, b.commands.length ≤ 3 := by decide +kernel

/-- A returned command with the opcode of a table entry was made from that entry. -/
theorem known_derived {b c : Command} (hb : b ∈ escPosCommands) (hc : Known c) (ho : c.commands = b.commands) : Derived b c := by
  rcases hc with ⟨base, hbase, hk, hd⟩ | ⟨op, hdr, x, h1, _, _, _, h5⟩
  · rw [← opcode_unique base hbase b hb (by rw [← hd.commands, ho])]
    exact hd
  · exfalso
    have hs := opcode_length b hb
    rw [← ho, h1] at hs
    simp only [List.length_append] at hs
    rcases h5 with ⟨⟨rfl, hl⟩ | ⟨rfl, hl⟩, _⟩ | ⟨rfl, hl, _⟩ <;> simp [hl] at hs

theorem derived_unit {b c : Command} {id : Hid} (h : Derived b c) (hb : b.handler = .unit id) : c.handler = .unit id := by
  have := h.handler
  rw [hb] at this
  rcases h1 : c.handler <;> rw [h1] at this <;> simp [Handler.sameClass] at this
  rw [this]

variable {σ Out : Type} {R : OutputRenderer σ Out} {ext : Ext}

/-- Commands of kind `Context`. -/
theorem context_step {cmd : Command} {r r' : Renderer σ Out} (h : processCommand R ext r cmd = .ok r')
    (hk : cmd.kind = .context) :
    ∃ r1, processText R r = .ok r1 ∧ applyContext ext cmd r1.context = .ok r'.context ∧ r' = { r1 with context := r'.context } := by
  unfold processCommand at h
  rw [hk] at h
  simp only [bind_ok, pure_ok] at h
  obtain ⟨r1, h1, c, h2, rfl⟩ := h
  exact ⟨r1, h1, h2, rfl⟩

/-- Commands of kind `ContextControl`. -/
theorem contextControl_step {cmd : Command} {r r' : Renderer σ Out} (h : processCommand R ext r cmd = .ok r')
    (hk : cmd.kind = .contextControl) :
    ∃ r1 c o, processText R r = .ok r1 ∧ applyContext ext cmd r1.context = .ok c ∧ getDevice cmd c = .ok o ∧
      deviceCommands R (o.getD []) { r1 with context := c } = .ok r' := by
  unfold processCommand at h
  rw [hk] at h
  simp only [bind_ok] at h
  obtain ⟨r1, h1, c, h2, o, h3, h4⟩ := h
  exact ⟨r1, c, o, h1, h2, h3, h4⟩

/-- Commands of kind `Control`. -/
theorem control_step {cmd : Command} {r r' : Renderer σ Out} (h : processCommand R ext r cmd = .ok r')
    (hk : cmd.kind = .control) :
    ∃ r1 o, processText R r = .ok r1 ∧ getDevice cmd r.context = .ok o ∧ deviceCommands R (o.getD []) r1 = .ok r' := by
  unfold processCommand at h
  rw [hk] at h
  simp only [bind_ok] at h
  obtain ⟨o, h1, r1, h2, h3⟩ := h
  exact ⟨r1, o, h2, h1, h3⟩

/-- Commands of kind `TextStyle`. -/
theorem textStyle_step {cmd : Command} {r r' : Renderer σ Out} (h : processCommand R ext r cmd = .ok r')
    (hk : cmd.kind = .textStyle) :
    ∃ c o, applyContext ext cmd r.context = .ok c ∧ getDevice cmd c = .ok o ∧
      deviceCommands R (o.getD []) { r with context := c } = .ok r' := by
  unfold processCommand at h
  rw [hk] at h
  simp only [bind_ok] at h
  obtain ⟨c, h1, o, h2, h3⟩ := h
  exact ⟨c, o, h1, h2, h3⟩

/-- Commands of kind `Graphics`. -/
theorem graphics_step {cmd : Command} {r r' : Renderer σ Out} (h : processCommand R ext r cmd = .ok r')
    (hk : cmd.kind = .graphics) :
    ∃ r1 g r2 o, processText R r = .ok r1 ∧ getGraphics ext cmd r1.context = .ok g ∧ processGraphicsOpt R r1 g = .ok r2 ∧
      getDevice cmd r2.context = .ok o ∧ deviceCommands R (o.getD []) r2 = .ok r' := by
  unfold processCommand at h
  rw [hk] at h
  simp only [bind_ok] at h
  obtain ⟨r1, h1, g, h2, r2, h3, o, h4, h5⟩ := h
  exact ⟨r1, g, r2, o, h1, h2, h3, h4, h5⟩

theorem deviceCommands_context {ds : List DeviceCommand} {r r' : Renderer σ Out} (h : deviceCommands R ds r = .ok r') :
    ds.foldlM (fun c d => deviceContext d c) r.context = .ok r'.context := by
  induction ds generalizing r with
  | nil => simp only [deviceCommands, ok_ok] at h; subst h; rfl
  | cons d ds ih =>
    simp only [deviceCommands, bind_ok] at h
    obtain ⟨r1, h1, h2⟩ := h
    rw [List.foldlM_cons, (deviceCommand_context h1).1]
    exact ih h2

end Thermal
