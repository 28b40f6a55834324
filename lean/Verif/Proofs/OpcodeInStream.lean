import Verif.Proofs.Known
/-
The opcode of a returned command occurs in the input.
-/
namespace Thermal

/-- The opcodes of the table. -/
def tableOpcodes : List (List Byte) := escPosCommands.map (·.commands)

theorem tableOpcodes_short : ∀ op ∈ tableOpcodes, op.length ≤ 3 ∧ op ≠ [] := by decide +kernel

theorem base_subcommand_opcode : ∀ base ∈ baseCommands, base.kind = .subcommand → 3 ≤ base.commands.length := by decide +kernel

/-- The opcode of the command, if it is one of the table, occurs in `xs`. -/
def Occurs (xs : List Byte) (c : Command) : Prop := c.commands ∈ tableOpcodes → c.commands <:+: xs

theorem Occurs.mono {xs ys : List Byte} (h : xs <:+: ys) {c : Command} (hc : Occurs xs c) : Occurs ys c :=
  fun hm => (hc hm).trans h

theorem occurs_emitted {xs : List Byte} {c : Command} (ho : OpenOk c) (hc : Occurs xs c) : ∀ d ∈ emitted c, Occurs xs d := by
  intro d hd
  rcases emitted_known ho d hd with ⟨base, hb, hk, hder⟩ | ⟨op, hdr, x, h1, _, _, _, h5⟩
  · unfold emitted at hd
    split at hd
    · split at hd
      · simp only [List.mem_singleton] at hd
        subst hd
        have hb' := hder.handler
        rename_i sub hsub
        intro hm
        have hd0 := hder.dataKind
        exfalso
        have key : ∀ base ∈ baseCommands ++ [beginPrintCmd, endPrintCmd], base.dataKind ≠ .subcommand := by decide +kernel
        exact key base hb (by rw [← hd0]; rfl)
      · simp at hd
    · simp only [List.mem_singleton] at hd; subst hd; exact hc
  · intro hm
    exfalso
    have hs := (tableOpcodes_short _ hm).1
    rw [h1] at hs
    simp only [List.length_append] at hs
    rcases h5 with ⟨⟨rfl, hl⟩ | ⟨rfl, hl⟩, _⟩ | ⟨rfl, hl, _⟩ <;> simp [hl] at hs

theorem opcode_run {bs s} (h : PS.init.run bs = .ok s) :
    s.pend <:+ bs ∧ (∀ c, s.cur = some c → OpenOk c ∧ Occurs bs c) ∧ ∀ c ∈ s.out, Occurs bs c := by
  refine PS.run_induct (fun bs s => s.pend <:+ bs ∧ (∀ c, s.cur = some c → OpenOk c ∧ Occurs bs c) ∧ ∀ c ∈ s.out, Occurs bs c) ?_ ?_ bs s h
  · refine ⟨List.suffix_refl _, ?_, ?_⟩
    · intro c hc; simp [PS.init] at hc
    · intro c hc; simp [PS.init] at hc; subst hc
      intro hm; exact absurd rfl (tableOpcodes_short _ hm).2
  · intro xs s b s' _ ih hs
    have hxs : xs <:+: xs ++ [b] := (List.prefix_append xs [b]).isInfix
    have hunk : ∀ d, OpenOk { unknownCmd with data := d } := by
      intro d
      exact ⟨⟨unknownCmd, by simp [baseCommands], ⟨rfl, rfl, rfl, rfl, rfl⟩⟩, by intro s hs; simp [unknownCmd] at hs⟩
    have hunk2 : ∀ d ys, Occurs ys { unknownCmd with data := d } := by
      intro d ys hm
      have := (tableOpcodes_short _ hm).1
      simp [unknownCmd] at this
    have htxt : ∀ d, OpenOk { textCmd with data := d } := by
      intro d
      exact ⟨⟨textCmd, by simp [baseCommands], ⟨rfl, rfl, rfl, rfl, rfl⟩⟩, by intro s hs; simp [textCmd] at hs⟩
    have htxt2 : ∀ d ys, Occurs ys { textCmd with data := d } := by
      intro d ys hm
      exact absurd rfl (tableOpcodes_short _ hm).2
    have key : ∀ (s s' : PS), s.pend <:+ xs → (∀ c, s.cur = some c → OpenOk c ∧ Occurs xs c) → (∀ c ∈ s.out, Occurs xs c) → SearchCase s b s' →
        s'.pend <:+ xs ++ [b] ∧ (∀ c, s'.cur = some c → OpenOk c ∧ Occurs (xs ++ [b]) c) ∧ ∀ c ∈ s'.out, Occurs (xs ++ [b]) c := by
      intro s s' i0 i1 i2 hsc
      have hOpt : ∀ c ∈ emittedOpt s.cur, Occurs (xs ++ [b]) c := by
        rcases hc : s.cur with _ | d
        · simp [emittedOpt]
        · intro c hc'
          exact (occurs_emitted (i1 d hc).1 (i1 d hc).2 c hc').mono hxs
      have hUnk : ∀ c ∈ emittedOrUnknown s.cur, Occurs (xs ++ [b]) c := by
        rcases hc : s.cur with _ | d
        · intro c hc; simp only [emittedOrUnknown, List.mem_singleton] at hc; subst hc; exact hunk2 _ _
        · intro c hc'
          exact (occurs_emitted (i1 d hc).1 (i1 d hc).2 c hc').mono hxs
      have hp : s.pend ++ [b] <:+ xs ++ [b] := by
        obtain ⟨t, rfl⟩ := i0
        exact ⟨t, by simp⟩
      cases hsc with
      | complete c hl =>
        refine ⟨List.nil_suffix, ?_, ?_⟩
        · intro d hd; simp only [Option.some.injEq] at hd; subst hd
          refine ⟨⟨⟨_, List.mem_append_left _ (look_complete hl).1, Derived.refl _⟩, ?_⟩, ?_⟩
          · intro t ht
            have := table_sub_none _ (look_complete hl).1
            rw [ht] at this
            exact subOk_none this
          · intro _
            rw [(look_complete hl).2]; exact hp.isInfix
        · intro d hd; rcases List.mem_append.1 hd with h | h
          · exact (i2 d h).mono hxs
          · exact hOpt d h
      | part hl => exact ⟨hp, fun c hc => ⟨(i1 c hc).1, (i1 c hc).2.mono hxs⟩, fun c hc => (i2 c hc).mono hxs⟩
      | lead hl hL =>
        refine ⟨List.nil_suffix, ?_, ?_⟩
        · intro d hd; simp only [Option.some.injEq] at hd; subst hd; exact ⟨hunk _, hunk2 _ _⟩
        · intro d hd; rcases List.mem_append.1 hd with h | h
          · exact (i2 d h).mono hxs
          · exact hUnk d h
      | append hl hL hd =>
        refine ⟨List.nil_suffix, ?_, fun c hc => (i2 c hc).mono hxs⟩
        intro d hd
        simp only [Option.map_eq_some_iff] at hd
        obtain ⟨c, hc, rfl⟩ := hd
        obtain ⟨⟨⟨base, hb, hd⟩, hs⟩, h2⟩ := i1 c hc
        exact ⟨⟨⟨base, hb, hd.1, hd.2, hd.3, hd.4, hd.5⟩, hs⟩, fun hm => (h2 hm).trans hxs⟩
      | text hl hL hd =>
        refine ⟨List.nil_suffix, ?_, ?_⟩
        · intro d hd; simp only [Option.some.injEq] at hd; subst hd; exact ⟨htxt _, htxt2 _ _⟩
        · intro d hd; rcases List.mem_append.1 hd with h | h
          · exact (i2 d h).mono hxs
          · exact hUnk d h
    have hpush : ∀ {c c' : Command} {ok}, OpenOk c ∧ Occurs xs c → c.push b = .ok (c', ok) → OpenOk c' ∧ Occurs xs c' := by
      intro c c' ok ⟨h1, h2⟩ hpu
      refine ⟨openOk_push h1 hpu, ?_⟩
      unfold Occurs
      rw [(push_derived hpu).commands]
      exact h2
    cases step_case hs with
    | push c c' hp hd hc hpu =>
      refine ⟨by dsimp only; rw [hp]; exact List.nil_suffix, ?_, fun c hc => (ih.2.2 c hc).mono hxs⟩
      intro d hd; simp only [Option.some.injEq] at hd; subst hd
      have := hpush (ih.2.1 c hc) hpu
      exact ⟨this.1, this.2.mono hxs⟩
    | reject c c' hp hd hc hpu s' hsc =>
      refine key { s with cur := some c' } _ ih.1 ?_ ih.2.2 hsc
      intro d hd; simp only [Option.some.injEq] at hd; subst hd; exact hpush (ih.2.1 c hc) hpu
    | search hns s' hsc => exact key s _ ih.1 ih.2.1 ih.2.2 hsc

/-- The opcode of a returned command occurs in the input. -/
theorem opcode_in_stream {bytes cmds} (h : parseEscPos bytes = .ok cmds) {c : Command} (hc : c ∈ cmds)
    (ho : c.commands ∈ tableOpcodes) : c.commands <:+: bytes := by
  rw [parseEscPos_eq] at h
  rcases hx : PS.init.run bytes with e | s
  · rw [hx] at h; simp [Except.map] at h
  · rw [hx] at h
    simp only [Except.map, Except.ok.injEq] at h
    subst h
    obtain ⟨_, h1, h2⟩ := opcode_run hx
    simp only [PS.finish, List.mem_append, List.mem_singleton] at hc
    rcases hc with (hc | hc) | hc
    · exact h2 c hc ho
    · rcases hcu : s.cur with _ | d
      · rw [hcu] at hc; simp [emittedOpt] at hc
      · rw [hcu] at hc; exact occurs_emitted (h1 d hcu).1 (h1 d hcu).2 c hc ho
    · subst hc; exact absurd rfl (tableOpcodes_short _ ho).2

end Thermal
