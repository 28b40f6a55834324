import Verif.Proofs.ParserNames
import Verif.Proofs.SubLookup
/-
Every command returned by the parser is one of the table, or a function of GS ( L, GS 8 L or GS ( k selected by its
header.
-/
namespace Thermal

/-- The functions a sub-command header selects. -/
def SubTable.lookup (t : SubTable) (useM : Bool) (m fn : Byte) : Option SubCmd :=
  if useM then detectKindUseM t.all m fn Option.none else detectKind t.all fn Option.none

/-- The selected function of a sub-command handler. -/
def SubOk (s : SubState) : Prop :=
  (s.acceptData = false → s.subcommand = none) ∧
  ∀ sub, s.subcommand = some sub →
    sub.commands.length = s.metaLen ∧
    ∃ x, s.table.lookup s.useM (metaM sub.commands) (metaFn sub.commands) = some x ∧
      sub.name = x.name ∧ sub.id = x.id ∧ sub.kind = x.kind

/-- The commands with an entry of their own. -/
def baseCommands : List Command := escPosCommands ++ [textCmd, unknownCmd]

/-- The state of the open command of a parser. -/
def OpenOk (c : Command) : Prop :=
  (∃ base ∈ baseCommands, Derived base c) ∧ ∀ s, c.handler = .sub s → SubOk s

theorem subOk_pushData {s : SubState} {d b} (h : SubOk s) (ha : s.acceptData = true) : SubOk (s.pushData d b).1 := by
  unfold SubState.pushData
  split
  · exact h
  · split
    · rename_i x hx
      refine ⟨fun hf => ?_, ?_⟩
      · simp only at hf; rw [ha] at hf; cases hf
      · intro sub hs
        simp only [Option.some.injEq] at hs
        subst hs
        exact h.2 x hx
    · exact h

theorem subOk_push {s : SubState} {d b r} (h : SubOk s) (hp : s.push d b = .ok r) : SubOk r.1 := by
  rcases sub_push_case hp with ⟨_, _⟩ | ⟨ha, hl, _⟩ | ⟨ha⟩
  · exact h
  · refine subOk_pushData ⟨?_, ?_⟩ rfl
    · intro hf; cases hf
    · intro sub hs
      simp only [SubState.parsed, Option.map_eq_some_iff] at hs
      obtain ⟨x, h1, h2⟩ := hs
      subst h2
      refine ⟨?_, x, ?_, rfl, rfl, rfl⟩
      · simp only [List.length_take]
        have : (SubState.parsed s (d.take s.metaLen)).metaLen = s.metaLen := rfl
        rw [this]; omega
      · unfold SubState.select at h1
        rw [h.1 ha] at h1
        exact h1
  · exact subOk_pushData h ha

theorem openOk_push {c c' : Command} {b ok} (hn : OpenOk c) (h : c.push b = .ok (c', ok)) : OpenOk c' := by
  obtain ⟨⟨base, hb, hd⟩, hs⟩ := hn
  refine ⟨⟨base, hb, hd.trans (push_derived h)⟩, ?_⟩
  intro t ht
  rcases push_handler_sub h ht with h1 | ⟨s, d, ok', h1, h2⟩
  · exact hs t h1
  · exact subOk_push (hs s h1) h2

/-- What the commands returned by the parser look like. -/
def Known (c : Command) : Prop :=
  (∃ base ∈ baseCommands ++ [beginPrintCmd, endPrintCmd], base.kind ≠ .subcommand ∧ Derived base c) ∨
  ∃ op hdr x, c.commands = op ++ hdr ∧ c.kind = x.kind ∧ c.dataKind = .subcommand ∧ c.handler = .subUnit x.id ∧
    ((op = [29, 40, 76] ∧ hdr.length = 4 ∨ op = [29, 56, 76] ∧ hdr.length = 6) ∧ Spec.graphicsFunction (metaFn hdr) = some x ∨
     op = [29, 40, 107] ∧ hdr.length = 4 ∧ Spec.code2dImplemented (metaM hdr) (metaFn hdr) = some x)

/-- The rows of the table that are expanded into sub-commands. -/
theorem base_subcommands : ∀ base ∈ baseCommands, base.kind = .subcommand →
    base.commands = [29, 40, 76] ∧ base.handler = .sub { table := .graphics, isLarge := false, useM := false } ∨
    base.commands = [29, 56, 76] ∧ base.handler = .sub { table := .graphics, isLarge := true, useM := false } ∨
    base.commands = [29, 40, 107] ∧ base.handler = .sub { table := .code2d, isLarge := false, useM := true } := by
  decide +kernel

theorem emitted_known {c : Command} (h : OpenOk c) : ∀ d ∈ emitted c, Known d := by
  obtain ⟨⟨base, hb, hd⟩, hs⟩ := h
  intro d hm
  unfold emitted at hm
  split at hm
  · rename_i hk
    split at hm
    · rename_i sub hsub
      simp only [List.mem_singleton] at hm
      subst hm
      right
      rcases hh : c.handler with _ | _ | _ | _ | _ | _ | s <;> rw [hh] at hsub <;> simp [Handler.getSubcommand] at hsub
      obtain ⟨hl, x, h1, h2, h3, h4⟩ := (hs s hh).2 sub hsub
      have hcl := hd.handler
      rw [hh] at hcl
      refine ⟨c.commands, sub.commands, x, rfl, h4, rfl, by simp [SubCmd.toCommand, h3], ?_⟩
      rcases base_subcommands base hb (by rw [← hd.kind]; exact hk) with ⟨e1, e2⟩ | ⟨e1, e2⟩ | ⟨e1, e2⟩
      · rw [e2] at hcl
        obtain ⟨t1, t2, t3⟩ := hcl
        simp only at t1 t2 t3
        left
        refine ⟨.inl ⟨by rw [hd.commands, e1], by rw [hl, SubState.metaLen, ← t2]; rfl⟩, ?_⟩
        rw [← t1, ← t3] at h1
        rw [← detectKind_graphics]; exact h1
      · rw [e2] at hcl
        obtain ⟨t1, t2, t3⟩ := hcl
        simp only at t1 t2 t3
        left
        refine ⟨.inr ⟨by rw [hd.commands, e1], by rw [hl, SubState.metaLen, ← t2]; rfl⟩, ?_⟩
        rw [← t1, ← t3] at h1
        rw [← detectKind_graphics]; exact h1
      · rw [e2] at hcl
        obtain ⟨t1, t2, t3⟩ := hcl
        simp only at t1 t2 t3
        right
        refine ⟨by rw [hd.commands, e1], by rw [hl, SubState.metaLen, ← t2]; rfl, ?_⟩
        rw [← t1, ← t3] at h1
        rw [← detectKind_code2d]; exact h1
    · simp at hm
  · rename_i hk
    simp only [List.mem_singleton] at hm
    subst hm
    left
    exact ⟨base, List.mem_append_left _ hb, by rw [← hd.kind]; exact hk, hd⟩

theorem subOk_none {s : SubState} (h : s.subcommand = none) : SubOk s := ⟨fun _ => h, fun sub hs => by rw [h] at hs; cases hs⟩

theorem parse_known {bytes : List Byte} {cmds : List Command} (h : parseEscPos bytes = .ok cmds) : ∀ c ∈ cmds, Known c := by
  refine parse_all (J := OpenOk) (Q := Known) ?_ ?_ ?_ ?_ ?_ (fun c => emitted_known) ?_ ?_ ?_ h
  · intro c hc
    refine ⟨⟨c, List.mem_append_left _ hc, Derived.refl c⟩, ?_⟩
    intro s hs
    have := table_sub_none c hc
    rw [hs] at this
    exact subOk_none this
  · exact ⟨⟨textCmd, by simp [baseCommands], Derived.refl _⟩, by intro s hs; simp [textCmd] at hs⟩
  · exact ⟨⟨unknownCmd, by simp [baseCommands], Derived.refl _⟩, by intro s hs; simp [unknownCmd] at hs⟩
  · intro c d ⟨⟨base, hb, hd⟩, hs⟩
    exact ⟨⟨base, hb, hd.1, hd.2, hd.3, hd.4, hd.5⟩, hs⟩
  · intro c b c' ok; exact openOk_push
  · exact .inl ⟨beginPrintCmd, by simp, by decide, Derived.refl _⟩
  · exact .inl ⟨endPrintCmd, by simp, by decide, Derived.refl _⟩
  · exact .inl ⟨unknownCmd, by simp [baseCommands], by decide, Derived.refl _⟩

end Thermal
