import Verif.Proofs.ParserAccount
/-
C07, C10, C12: where every input byte goes, and when the parser panics.
-/
namespace Thermal
set_option linter.unusedSimpArgs false
open Spec

/-- **C12**.  Whenever parsing returns, the input is a sequence of finished stretches, one last stretch and the
bytes of an incomplete opcode, and the result is Begin Print, what `Seg` says for each finished stretch, what `Last`
says for the last one, and End Print.  `Seg` and `Last` (Verif.Spec.Account) list every way in which a byte can be
missing from the result: a CAN not followed by '@', an incomplete opcode at the end, a sub-command with an unknown
function, the header of GS ( H, and a sub-command cut off by the end of the input. -/
theorem C12_every_byte_accounted {bytes : List Byte} {cmds : List Command} (h : parseEscPos bytes = .ok cmds) :
    ∃ done last opcode outs lastOut, bytes = done ++ last ++ opcode ∧
      cmds = beginPrintCmd :: (outs ++ lastOut ++ [endPrintCmd]) ∧
      Segs wire done outs ∧ Last wire last lastOut ∧
      (opcode = [] ∨ ∃ c ∈ escPosCommands, opcode <+: c.commands ∧ opcode ≠ c.commands) := by
  rw [parseEscPos_eq] at h
  rcases hs : PS.init.run bytes with e | s
  · rw [hs] at h; simp [Except.map] at h
  · rw [hs] at h
    simp only [Except.map, Except.ok.injEq] at h
    obtain ⟨hpend, pre, src, outs, hb, hout, hpc, hcur, -⟩ := accounted hs
    have hop : s.pend = [] ∨ ∃ c ∈ escPosCommands, s.pend <+: c.commands ∧ s.pend ≠ c.commands := by
      rcases hpend with h | ⟨-, c, hc, h1, h2⟩
      · exact .inl h
      · exact .inr ⟨c, hc, h1, fun h => h2 h.symm⟩
    cases hcur with
    | none hc hd =>
      exact ⟨pre, [], s.pend, outs, [], hb, by rw [← h]; simp [PS.finish, hout, hc, emittedOpt], segs_pieces hpc, .nothing, hop⟩
    | deflt hc hd hdef =>
      refine ⟨pre, src, s.pend, outs, _, hb, ?_, segs_pieces hpc, last_default hdef, hop⟩
      rw [← h]; simp [PS.finish, hout, hc, emittedOpt, emitted_def hdef]
    | opened hc hd hp ho =>
      refine ⟨pre, src, s.pend, outs, _, hb, ?_, segs_pieces hpc, last_opened ho, hop⟩
      rw [← h]; simp [PS.finish, hout, hc, emittedOpt]
    | closed hc hd hp ho =>
      refine ⟨pre ++ src, [], s.pend, _, [], by simp [hb], ?_, (segs_pieces hpc).snoc (seg_closed ho), .nothing, hop⟩
      rw [← h]; simp [PS.finish, hout, hc, emittedOpt]

/-- a whole receipt, for non-vacuity: the hypotheses of C07 and C12 are met -/
example : ∃ cmds, parseEscPos [27, 64, 72, 0x18, 105, 10, 29, 40, 76, 4, 0, 48, 69, 1, 2, 29, 40, 72, 2, 0, 1, 1, 27, 99] = .ok cmds :=
  ⟨_, rfl⟩

/-! ### C07 -/

theorem withoutCan_sublist {src d} (h : WithoutCan src d) : d.Sublist src := by
  induction h with
  | nil => exact .slnil
  | byte _ _ ih => exact ih.append (List.Sublist.refl _)
  | @can src d b _ _ ih => exact ih.append (List.Sublist.cons _ (List.Sublist.refl _))

theorem shown_sublist_wire (c : Command) : (shown c).Sublist (wire c) := by
  have hd : c.data.Sublist c.getCommandBytes.2 := by
    unfold Command.getCommandBytes
    split
    · split <;> simp
    all_goals simp
  have hcd : (c.commands ++ c.data).Sublist (wire c) := by
    refine List.Sublist.append ?_ hd
    unfold Command.getCommandBytes
    split <;> simp
  unfold shown
  split
  · exact hd.trans (List.sublist_append_right _ _)
  · exact hcd

theorem seg_sublist {src cs} (h : Seg wire src cs) : (cs.flatMap shown).Sublist src := by
  cases h with
  | blank => simp [shown, unknownCmd]
  | text h1 h2 => simpa [shown, textCmd] using withoutCan_sublist h1
  | unknown h1 h2 =>
    simpa [shown, unknownCmd] using withoutCan_sublist h2
  | command => simpa using shown_sublist_wire _
  | @request hdr m fn n c p h1 h2 h3 =>
    have := shown_sublist_wire c
    rw [h3] at this
    simp only [List.flatMap_cons, List.flatMap_nil, List.append_nil]
    exact this.trans ((List.sublist_append_left _ _).append (List.Sublist.refl _))
  | dropped => simp

theorem last_sublist {src cs} (h : Last wire src cs) : (cs.flatMap shown).Sublist src := by
  cases h with
  | nothing => simp
  | text h1 h2 => simpa [shown, textCmd] using withoutCan_sublist h1
  | unknown h1 h2 => simpa [shown, unknownCmd] using withoutCan_sublist h2
  | command => simpa using shown_sublist_wire _
  | @barcodeA c m rest h1 h2 h3 h4 =>
    simp only [List.flatMap_cons, List.flatMap_nil, List.append_nil, shown, h2, h3]
    split
    · exact List.sublist_append_right _ _
    · exact ((List.sublist_append_left [0x1D, 0x6B] [m])).append (List.Sublist.refl _)
  | @request hdr m fn n c p h1 h2 h3 =>
    have := shown_sublist_wire c
    rw [h3] at this
    simp only [List.flatMap_cons, List.flatMap_nil, List.append_nil]
    exact this.trans ((List.sublist_append_left _ _).append (List.Sublist.refl _))
  | subCut => simp
  | subDropped => simp
  | subHeader =>
    simp only [List.flatMap_cons, List.flatMap_nil, List.append_nil, shown, subCommand]
    split
    · simp
    · simp

theorem segs_sublist {src cs} (h : Segs wire src cs) : (cs.flatMap shown).Sublist src := by
  induction h with
  | nil => simp
  | snoc _ hs ih => rw [List.flatMap_append]; exact ih.append (seg_sublist hs)

/-- **C07**.  The opcode and data bytes of the returned commands, concatenated, are a subsequence of the input. -/
theorem C07_subsequence {bytes : List Byte} {cmds : List Command} (h : parseEscPos bytes = .ok cmds) :
    (cmds.flatMap shown).Sublist bytes := by
  obtain ⟨done, last, opcode, outs, lastOut, rfl, rfl, h1, h2, -⟩ := C12_every_byte_accounted h
  have hb : shown beginPrintCmd = [] := rfl
  have he : shown endPrintCmd = [] := rfl
  simp only [List.flatMap_cons, List.flatMap_append, List.flatMap_nil, hb, he, List.nil_append, List.append_nil]
  exact ((segs_sublist h1).append (last_sublist h2)).trans (List.sublist_append_left _ _)

/-! ### C10 -/

theorem run_error_split {bs : List Byte} : ∀ {s0 : PS} {e}, s0.run bs = .error e →
    ∃ pre b post s, bs = pre ++ b :: post ∧ s0.run pre = .ok s ∧ s.step b = .error e := by
  induction bs with
  | nil => intro s0 e h; simp [PS.run, pure, Except.pure] at h
  | cons b bs ih =>
    intro s0 e h
    simp only [PS.run, bind, Except.bind] at h
    rcases hb : s0.step b with e' | u
    · rw [hb] at h
      simp only [Except.error.injEq] at h; subst h
      exact ⟨[], b, bs, s0, rfl, rfl, hb⟩
    · rw [hb] at h
      obtain ⟨pre, c, post, s, h1, h2, h3⟩ := ih h
      refine ⟨b :: pre, c, post, s, by simp [h1], ?_, h3⟩
      simp [PS.run, hb, bind, Except.bind, h2]

theorem step_error {s : PS} {b e} (h : s.step b = .error e) :
    ∃ c, s.pend = [] ∧ s.isDef = false ∧ s.cur = some c ∧ c.push b = .error e := by
  unfold PS.step at h
  split at h
  · rename_i c hp hd hc
    refine ⟨c, hp, hd, hc, ?_⟩
    simp only [bind, Except.bind] at h
    split at h
    · rename_i v hv; rw [hv]; simp only [Except.error.injEq] at h ⊢; exact h
    · simp only [pure, Except.pure] at h
      split at h <;> simp at h
  · simp [pure, Except.pure] at h

theorem bad_header {c src b e} (h : OpenAs c src) (hp : c.push b = .error e) : e = .overflow ∧ BadHeader src := by
  obtain ⟨base, hb, A, hA, args, hr, rfl, rfl⟩ := h
  rcases Classical.em (A.more args) with hm | hm
  · rw [A.push_more args b hr hm] at hp; simp at hp
  · rcases Classical.em (A.fails args) with hf | hf
    · rw [A.push_fail args b hr hm hf] at hp
      simp only [Except.error.injEq] at hp
      refine ⟨hp.symm, ?_⟩
      cases hA with
      | fixed => exact hf.elim
      | cut => exact hf.elim
      | page => exact hf.elim
      | effects => exact hf.elim
      | barcode => exact hf.elim
      | bitImage => exact hf.elim
      | raster => exact hf.elim
      | graphics =>
        obtain ⟨pl, ph, m, fn, rfl, hd, -, -⟩ := hdr4 hf.1
        have := hf.2; rw [hd] at this
        exact .small (op := [0x1D, 0x28, 0x4C]) pl ph m fn (by simp) this
      | code2d =>
        obtain ⟨pl, ph, m, fn, rfl, hd, -, -⟩ := hdr4 hf.1
        have := hf.2; rw [hd] at this
        exact .small (op := [0x1D, 0x28, 0x6B]) pl ph m fn (by simp) this
      | request =>
        obtain ⟨pl, ph, m, fn, rfl, hd, -, -⟩ := hdr4 hf.1
        have := hf.2; rw [hd] at this
        exact .small (op := [0x1D, 0x28, 0x48]) pl ph m fn (by simp) this
      | large =>
        obtain ⟨p1, p2, p3, p4, m, fn, rfl, hd, -, -⟩ := hdr6 hf.1
        have := hf.2; rw [hd] at this
        exact .large p1 p2 p3 p4 m fn this
    · rw [A.push_done args b hr hm hf] at hp; simp at hp

/-- **C10**.  `parse_bytes` returns on every byte string, except that it panics with an arithmetic overflow on some
inputs that contain a sub-command header with a declared length below two, followed by at least one more byte. -/
theorem C10_panics_only_on_short_length {bytes : List Byte} {e : Panic} (h : parseEscPos bytes = .error e) :
    e = .overflow ∧ ∃ pre hdr post, bytes = pre ++ hdr ++ post ∧ BadHeader hdr ∧ post ≠ [] := by
  rw [parseEscPos_eq] at h
  rcases hs : PS.init.run bytes with e' | s
  · rw [hs] at h
    simp only [Except.map, Except.error.injEq] at h
    subst h
    obtain ⟨pre, b, post, s, h1, h2, h3⟩ := run_error_split hs
    obtain ⟨c, hp, hd, hc, hpu⟩ := step_error h3
    obtain ⟨-, done, src, cmds, hx, -, -, hcur, -⟩ := accounted h2
    cases hcur with
    | none hc' => rw [hc] at hc'; simp at hc'
    | deflt _ hd' => rw [hd] at hd'; simp at hd'
    | closed _ _ hp' => exact absurd hp hp'
    | opened hc' _ _ ho =>
      rw [hc] at hc'; simp only [Option.some.injEq] at hc'; subst hc'
      obtain ⟨he, hbh⟩ := bad_header ho hpu
      refine ⟨he, done, src, b :: post, ?_, hbh, by simp⟩
      rw [h1, hx, hp]; simp
  · rw [hs] at h; simp [Except.map] at h

/-- **C10**, converse: after any well-formed items such a header, followed by any byte, does panic. -/
theorem C10_short_length_panics {pre : List Item} (hw : ∀ i ∈ pre, i.WF) (hs : separated pre) {hdr post : List Byte}
    (hb : BadHeader hdr) (hp : post ≠ []) : parseEscPos (streamBytes pre ++ hdr ++ post) = .error .overflow := by
  obtain ⟨s', h1, h2, -⟩ := items_run pre init_closes hw hs (by intro it _ _; rfl)
  rcases post with _ | ⟨b, post⟩
  · exact absurd rfl hp
  have key : ∀ {base : Command} (A : Auto base) (args : List Byte), base ∈ escPosCommands → Reach A.more args →
      ¬ A.more args → A.fails args → hdr = base.commands ++ args →
      parseEscPos (streamBytes pre ++ hdr ++ b :: post) = .error .overflow := by
    intro base A args hbase hr hm hf he
    have hrun : s'.run hdr = .ok (PS.mk (some (A.after args)) false []
        ([beginPrintCmd] ++ blankLead PS.init pre ++ pre.flatMap Item.commands)) := by
      rw [he, PS.run_append, h2.opcode hbase]
      simp only [Except.bind]
      exact auto_run A args hr
    have hpu := A.push_fail args b hr hm hf
    rw [parseEscPos_eq, PS.run_append, PS.run_append, h1]
    simp only [Except.bind, hrun, PS.run, bind, PS.step, hpu, Except.map]
  have sub : ∀ {s0 : SubState} {args : List Byte}, args.length = s0.metaLen → declared args < 2 →
      Reach (subMore s0) args ∧ ¬ subMore s0 args ∧ subFails s0 args := by
    intro s0 args hl hd
    refine ⟨?_, ?_, hl, hd⟩
    · apply reach_of
      intro p q hpq hq
      left
      have := congrArg List.length hpq
      have := List.length_pos_iff.2 hq
      simp only [List.length_append] at *
      omega
    · rintro (h | h)
      · omega
      · rw [List.take_of_length_le (by omega)] at h; omega
  cases hb with
  | @small op pl ph m fn hop hlt =>
    have hd : declared [pl, ph, m, fn] < 2 := by simpa [declared, parseU16_eq] using hlt
    simp only [List.mem_cons, List.not_mem_nil, or_false] at hop
    rcases hop with rfl | rfl | rfl
    · obtain ⟨a, b', c⟩ := sub (s0 := { table := .code2d, isLarge := false, useM := true }) (args := [pl, ph, m, fn]) rfl hd
      exact key (Auto.sub _ _ subInit_code2d) [pl, ph, m, fn] (by decide +kernel) a b' c rfl
    · obtain ⟨a, b', c⟩ := sub (s0 := { table := .graphics, isLarge := false, useM := false }) (args := [pl, ph, m, fn]) rfl hd
      exact key (Auto.sub _ _ subInit_graphics) [pl, ph, m, fn] (by decide +kernel) a b' c rfl
    · obtain ⟨a, b', c⟩ := sub (s0 := { table := .none, isLarge := false, useM := false }) (args := [pl, ph, m, fn]) rfl hd
      exact key (Auto.sub _ _ subInit_request) [pl, ph, m, fn] (by decide +kernel) a b' c rfl
  | large p1 p2 p3 p4 m fn hlt =>
    have hd : declared [p1, p2, p3, p4, m, fn] < 2 := by simpa [declared, parseU32_eq] using hlt
    obtain ⟨a, b', c⟩ := sub (s0 := { table := .graphics, isLarge := true, useM := false }) (args := [p1, p2, p3, p4, m, fn]) rfl hd
    exact key (Auto.sub _ _ subInit_large) [p1, p2, p3, p4, m, fn] (by decide +kernel) a b' c rfl

/-- GS ( k with length 1 -/
example : BadHeader [0x1D, 0x28, 0x6B, 1, 0, 49, 80] ∧
    parseEscPos ([72, 0x1D, 0x28, 0x6B, 1, 0, 49, 80] ++ [0]) = .error .overflow :=
  ⟨.small (op := [0x1D, 0x28, 0x6B]) 1 0 49 80 (by simp) (by decide), by decide +kernel⟩

end Thermal
