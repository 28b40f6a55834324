import Verif.Proofs.ParserItems2
/-
What the open command looks like in every reachable state.
-/
namespace Thermal
set_option linter.unusedSimpArgs false

/-- The automata of the table entries. -/
inductive Canon : {base : Command} → Auto base → Prop where
  | fixed {base n hn hd} (hb : base ∈ escPosCommands) : Canon (Auto.fixed base n hn hd)
  | cut : Canon Auto.cut
  | page : Canon Auto.page
  | effects : Canon Auto.effects
  | barcode : Canon Auto.barcode
  | bitImage : Canon Auto.bitImage
  | raster : Canon Auto.raster
  | graphics : Canon (Auto.sub _ _ subInit_graphics)
  | large : Canon (Auto.sub _ _ subInit_large)
  | code2d : Canon (Auto.sub _ _ subInit_code2d)
  | request : Canon (Auto.sub _ _ subInit_request)

theorem canon_exists {c : Command} (hc : c ∈ escPosCommands) : ∃ A : Auto c, Canon A := by
  have key : ∀ c ∈ escPosCommands, c.dataKind.arity ≠ none ∨ c = feedAndCutCmd ∨ c = pageModePrintDataCmd ∨
      c = setCharacterEffectsCmd ∨ c = barcodeCmd ∨ c = bitImageCmd ∨ c = rasterBitImageCmd ∨ c = graphicsCmd ∨
      c = largeGraphicsCmd ∨ c = code2dCmd ∨ c = requestResponseTransmissionCmd := by decide +kernel
  rcases key c hc with h | rfl | rfl | rfl | rfl | rfl | rfl | rfl | rfl | rfl | rfl
  · rcases hn : c.dataKind.arity with _ | n
    · exact absurd hn h
    · exact ⟨Auto.fixed c n hn (table_data_empty c hc), .fixed hc⟩
  · exact ⟨_, .cut⟩
  · exact ⟨_, .page⟩
  · exact ⟨_, .effects⟩
  · exact ⟨_, .barcode⟩
  · exact ⟨_, .bitImage⟩
  · exact ⟨_, .raster⟩
  · exact ⟨_, .graphics⟩
  · exact ⟨_, .large⟩
  · exact ⟨_, .code2d⟩
  · exact ⟨_, .request⟩

/-- `c` is a table command that has read the argument bytes; `src` are its opcode and arguments. -/
def OpenAs (c : Command) (src : List Byte) : Prop :=
  ∃ base ∈ escPosCommands, ∃ A : Auto base, Canon A ∧ ∃ args, Reach A.more args ∧ c = A.after args ∧
    src = base.commands ++ args

/-- `c` is a completely read table command in its closed form; `src` are its opcode and arguments. -/
def ClosedAs (c : Command) (src : List Byte) : Prop :=
  ∃ base ∈ escPosCommands, ∃ A : Auto base, Canon A ∧ ∃ args, Reach A.more args ∧ ¬ A.more args ∧ ¬ A.fails args ∧
    c = A.closed args ∧ src = base.commands ++ args

theorem OpenAs.push {c c' : Command} {src b} (h : OpenAs c src) (hp : c.push b = .ok (c', true)) :
    OpenAs c' (src ++ [b]) := by
  obtain ⟨base, hb, A, hA, args, hr, rfl, rfl⟩ := h
  refine ⟨base, hb, A, hA, args ++ [b], ?_, ?_, by simp⟩
  all_goals
    rcases Classical.em (A.more args) with hm | hm
    · first
      | exact hr.snoc hm
      | (rw [A.push_more args b hr hm] at hp; simp only [Except.ok.injEq, Prod.mk.injEq] at hp; exact hp.1.symm)
    · rcases Classical.em (A.fails args) with hf | hf
      · rw [A.push_fail args b hr hm hf] at hp; simp at hp
      · rw [A.push_done args b hr hm hf] at hp; simp at hp

theorem OpenAs.reject {c c' : Command} {src b} (h : OpenAs c src) (hp : c.push b = .ok (c', false)) :
    ClosedAs c' src := by
  obtain ⟨base, hb, A, hA, args, hr, rfl, rfl⟩ := h
  rcases Classical.em (A.more args) with hm | hm
  · rw [A.push_more args b hr hm] at hp; simp at hp
  · rcases Classical.em (A.fails args) with hf | hf
    · rw [A.push_fail args b hr hm hf] at hp; simp at hp
    · rw [A.push_done args b hr hm hf] at hp
      simp only [Except.ok.injEq, Prod.mk.injEq, and_true] at hp
      exact ⟨base, hb, A, hA, args, hr, hm, hf, hp.symm, rfl⟩

/-- bytes with lone CANs removed: what a text run collects -/
inductive StripCan : List Byte → List Byte → Prop where
  | nil : StripCan [] []
  | byte {src d b} : StripCan src d → Spec.opener b = false → StripCan (src ++ [b]) (d ++ [b])
  | can {src d b} : StripCan src d → b ≠ 0x40 → StripCan (src ++ [0x18, b]) (d ++ [b])

/-- the open text or unknown run and its source bytes -/
inductive DefaultAs : Command → List Byte → Prop where
  | text {d src} : StripCan src d → d ≠ [] → DefaultAs { textCmd with data := d } src
  | unknown {u d src} : isLead u = true → look u = .nomatch → StripCan src d →
      DefaultAs { unknownCmd with data := u ++ d } (u ++ src)

/-- the pending bytes are a proper, non-empty prefix of an opcode -/
def Pending (p : List Byte) : Prop := p ≠ [] ∧ ∃ c ∈ escPosCommands, p <+: c.commands ∧ c.commands ≠ p

/-- a byte sequence that does not match: either starts like an unknown command, or it is a plain byte, or CAN and
a byte other than '@' -/
theorem nomatch_cases {p : List Byte} {b : Byte} (hp : p = [] ∨ Pending p) (hl : look (p ++ [b]) = .nomatch)
    (hL : isLead (p ++ [b]) = false) :
    (p = [] ∧ Spec.opener b = false) ∨ (p = [0x18] ∧ b ≠ 0x40) := by
  rcases hp with rfl | ⟨hne, c, hc, hpre, hnc⟩
  · left
    refine ⟨rfl, ?_⟩
    have key : ∀ n < 256, (escPosCommands.find? (fun c => c.commands == [UInt8.ofNat n]) = none ∧
        escPosCommands.any (fun c => [UInt8.ofNat n].isPrefixOf c.commands) = false) →
        isLead [UInt8.ofNat n] = false → Spec.opener (UInt8.ofNat n) = false := by decide +kernel
    refine byte_all (P := fun b => (escPosCommands.find? (fun c => c.commands == [b]) = none ∧
        escPosCommands.any (fun c => [b].isPrefixOf c.commands) = false) →
        isLead [b] = false → Spec.opener b = false) key b ?_ (by simpa using hL)
    simp only [List.nil_append] at hl
    unfold look at hl
    split at hl
    · simp at hl
    · rename_i hn
      split at hl
      · simp at hl
      · rename_i ha
        exact ⟨hn, by simpa using ha⟩
  · right
    have key : ∀ c ∈ escPosCommands, ∀ i < c.commands.length, c.commands.take i ≠ [] →
        isLead (c.commands.take i) = false → c.commands.take i = [0x18] := by decide +kernel
    have hlt : p.length < c.commands.length := by
      have h1 := hpre.length_le
      rcases Nat.lt_or_ge p.length c.commands.length with h | h
      · exact h
      · exact absurd (hpre.eq_of_length (by omega)).symm hnc
    have hlead : isLead p = false := by
      rcases p with _ | ⟨x, xs⟩
      · exact absurd rfl hne
      · simpa [isLead, CommandSet.leads] using hL
    have ht : c.commands.take p.length = p := (List.prefix_iff_eq_take.1 hpre).symm
    have := key c hc p.length hlt (by rw [ht]; exact hne) (by rw [ht]; exact hlead)
    rw [ht] at this
    refine ⟨this, ?_⟩
    rintro rfl
    subst this
    have : look cancelCmd.commands = .complete cancelCmd := look_opcode (by decide +kernel)
    have h2 : cancelCmd.commands = [24, 64] := rfl
    rw [h2] at this
    simp only [List.cons_append, List.nil_append] at hl
    rw [this] at hl; simp at hl

theorem emitted_def {c : Command} {src} (h : DefaultAs c src) : emitted c = [c] := by
  cases h <;> exact emitted_plain (by simp [textCmd, unknownCmd])

theorem emitted_defcmd {c : Command} {src} (h : DefaultAs c src) : DefCmd c := by
  cases h
  · left; rfl
  · right; rfl

/-- the command that is open, and the input bytes it stands for -/
inductive CurAs (s : PS) : List Byte → Prop where
  | none (hc : s.cur = none) (hd : s.isDef = false) : CurAs s []
  | deflt {c src} (hc : s.cur = some c) (hd : s.isDef = true) (h : DefaultAs c src) : CurAs s src
  | opened {c src} (hc : s.cur = some c) (hd : s.isDef = false) (hp : s.pend = []) (h : OpenAs c src) : CurAs s src
  | closed {c src} (hc : s.cur = some c) (hd : s.isDef = false) (hp : s.pend ≠ []) (h : ClosedAs c src) : CurAs s src

/-- A finished piece of input and the commands handed out for it. -/
inductive Piece : List Byte → List Command → Prop where
  | blank : Piece [] [unknownCmd]
  | deflt {c src} (h : DefaultAs c src) : Piece src [c]
  | closed {c src} (h : ClosedAs c src) : Piece src (emitted c)

/-- a sequence of pieces -/
inductive Pieces : List Byte → List Command → Prop where
  | nil : Pieces [] []
  | snoc {src cmds s c} : Pieces src cmds → Piece s c → Pieces (src ++ s) (cmds ++ c)

structure Accounted (xs : List Byte) (s : PS) : Prop where
  pend : s.pend = [] ∨ Pending s.pend
  pieces : ∃ pre src cmds, xs = pre ++ src ++ s.pend ∧ s.out = beginPrintCmd :: cmds ∧ Pieces pre cmds ∧
    CurAs s src ∧ (s.cur = none → cmds = [])

/-- the state in which a search starts: the open command can be emitted as it is -/
inductive ReadyAs (s : PS) : List Byte → Prop where
  | none (hc : s.cur = none) (hd : s.isDef = false) : ReadyAs s []
  | deflt {c src} (hc : s.cur = some c) (hd : s.isDef = true) (h : DefaultAs c src) : ReadyAs s src
  | closed {c src} (hc : s.cur = some c) (hd : s.isDef = false) (h : ClosedAs c src) : ReadyAs s src

theorem ReadyAs.piece {s : PS} {src pre cmds} (h : ReadyAs s src) (hp : Pieces pre cmds) :
    Pieces (pre ++ src) (cmds ++ emittedOpt s.cur) := by
  cases h with
  | none hc hd => simpa [hc, emittedOpt] using hp
  | deflt hc hd h => rw [hc]; exact hp.snoc (by simpa [emittedOpt, emitted_def h] using Piece.deflt h)
  | closed hc hd h => rw [hc]; exact hp.snoc (Piece.closed h)

theorem ReadyAs.pieceU {s : PS} {src pre cmds} (h : ReadyAs s src) (hp : Pieces pre cmds) :
    Pieces (pre ++ src) (cmds ++ emittedOrUnknown s.cur) := by
  cases h with
  | none hc hd => simpa [hc, emittedOrUnknown] using hp.snoc Piece.blank
  | deflt hc hd h => rw [hc]; exact hp.snoc (by simpa [emittedOrUnknown, emitted_def h] using Piece.deflt h)
  | closed hc hd h => rw [hc]; exact hp.snoc (Piece.closed h)

theorem search_accounted {s s' : PS} {b pre src cmds} (hpend : s.pend = [] ∨ Pending s.pend)
    (hout : s.out = beginPrintCmd :: cmds) (hpc : Pieces pre cmds) (hcur : ReadyAs s src)
    (hn : s.cur = none → cmds = []) (hs : SearchCase s b s') :
    Accounted (pre ++ src ++ s.pend ++ [b]) s' := by
  cases hs with
  | complete c hl =>
    obtain ⟨hc, he⟩ := look_complete hl
    obtain ⟨A, hA⟩ := canon_exists hc
    refine ⟨.inl rfl, pre ++ src, c.commands, cmds ++ emittedOpt s.cur, by simp [he], by simp [hout],
      hcur.piece hpc, .opened rfl rfl rfl ⟨c, hc, A, hA, [], Reach.nil, A.init.symm, by simp⟩, by simp⟩
  | part hl =>
    obtain ⟨c, hc, hp, hne⟩ := look_part hl
    refine ⟨.inr ⟨by simp, c, hc, hp, hne⟩, pre, src, cmds, by simp, hout, hpc, ?_, hn⟩
    cases hcur with
    | none hc hd => exact .none hc hd
    | deflt hc hd h => exact .deflt hc hd h
    | closed hc hd h => exact .closed hc hd (by simp) h
  | lead hl hL =>
    refine ⟨.inl rfl, pre ++ src, s.pend ++ [b], cmds ++ emittedOrUnknown s.cur, by simp, by simp [hout],
      hcur.pieceU hpc, .deflt rfl rfl ?_, by simp⟩
    have := DefaultAs.unknown (u := s.pend ++ [b]) hL hl .nil
    simpa using this
  | append hl hL hd =>
    cases hcur with
    | none hc hd' => rw [hd] at hd'; simp at hd'
    | closed hc hd' h => rw [hd] at hd'; simp at hd'
    | @deflt c _ hc hd' h =>
      refine ⟨.inl rfl, pre, src ++ s.pend ++ [b], cmds, by simp, hout, hpc,
        .deflt (by simp [hc]; rfl) hd ?_, by simp [hc]⟩
      rcases nomatch_cases hpend hl hL with ⟨hp0, hb⟩ | ⟨hp0, hb⟩
      · rw [hp0]
        cases h with
        | text hst hne => simpa using DefaultAs.text (hst.byte hb) (by simp)
        | unknown h1 h2 hst =>
          have := DefaultAs.unknown h1 h2 (hst.byte hb)
          simpa using this
      · rw [hp0]
        cases h with
        | text hst hne => simpa using DefaultAs.text (hst.can hb) (by simp)
        | unknown h1 h2 hst =>
          have := DefaultAs.unknown h1 h2 (hst.can hb)
          simpa using this
  | text hl hL hd =>
    refine ⟨.inl rfl, pre ++ src, s.pend ++ [b], cmds ++ emittedOrUnknown s.cur, by simp, by simp [hout],
      hcur.pieceU hpc, .deflt rfl rfl ?_, by simp⟩
    rcases nomatch_cases hpend hl hL with ⟨hp0, hb⟩ | ⟨hp0, hb⟩
    · rw [hp0]; exact DefaultAs.text (StripCan.nil.byte hb) (by simp)
    · rw [hp0]; exact DefaultAs.text (StripCan.nil.can hb) (by simp)

theorem accounted {xs s} (h : PS.init.run xs = .ok s) : Accounted xs s := by
  refine PS.run_induct Accounted ?_ ?_ xs s h
  · exact ⟨.inl rfl, [], [], [], rfl, rfl, .nil, .none rfl rfl, fun _ => rfl⟩
  · intro xs s b s' _ ih hs
    obtain ⟨hpend, pre, src, cmds, hxs, hout, hpc, hcur, hn⟩ := ih
    cases step_case hs with
    | push c c' hp hd hc hpu =>
      cases hcur with
      | none hc' => rw [hc] at hc'; simp at hc'
      | deflt _ hd' => rw [hd] at hd'; simp at hd'
      | closed _ _ hp' => exact absurd hp hp'
      | opened hc' _ _ ho =>
        rw [hc] at hc'; simp only [Option.some.injEq] at hc'; subst hc'
        refine ⟨.inl hp, pre, src ++ [b], cmds, by simp [hxs, hp], hout, hpc, .opened rfl hd hp (ho.push hpu), by simp⟩
    | reject c c' hp hd hc hpu s' hsc =>
      cases hcur with
      | none hc' => rw [hc] at hc'; simp at hc'
      | deflt _ hd' => rw [hd] at hd'; simp at hd'
      | closed _ _ hp' => exact absurd hp hp'
      | opened hc' _ _ ho =>
        rw [hc] at hc'; simp only [Option.some.injEq] at hc'; subst hc'
        rw [hxs]
        exact search_accounted (s := { s with cur := some c' }) hpend hout hpc
          (.closed rfl hd (ho.reject hpu)) (by simp) hsc
    | search hns s' hsc =>
      rw [hxs]
      refine search_accounted hpend hout hpc ?_ hn hsc
      cases hcur with
      | none hc hd => exact .none hc hd
      | deflt hc hd h => exact .deflt hc hd h
      | closed hc hd hp h => exact .closed hc hd h
      | opened hc hd hp h => exact absurd ⟨hp, hd, by simp [hc]⟩ hns

end Thermal
