import Verif.Props.ParserStream
import Verif.Spec.Account
/-
From the invariant `accounted` to the specification vocabulary of Verif.Spec.Account.
-/
namespace Thermal
set_option linter.unusedSimpArgs false
open Spec

theorem hdr4 {hdr : List Byte} (h : hdr.length = 4) : ∃ pl ph m fn, hdr = [pl, ph, m, fn] ∧
    declared hdr = pl.toNat + ph.toNat * 256 ∧ metaM hdr = m ∧ metaFn hdr = fn := by
  match hdr, h with
  | [pl, ph, m, fn], _ => exact ⟨pl, ph, m, fn, rfl, by simp [declared, parseU16_eq], rfl, rfl⟩

theorem hdr6 {hdr : List Byte} (h : hdr.length = 6) : ∃ p1 p2 p3 p4 m fn, hdr = [p1, p2, p3, p4, m, fn] ∧
    declared hdr = p1.toNat + p2.toNat * 256 + p3.toNat * 65536 + p4.toNat * 16777216 ∧ metaM hdr = m ∧ metaFn hdr = fn := by
  match hdr, h with
  | [p1, p2, p3, p4, m, fn], _ => exact ⟨p1, p2, p3, p4, m, fn, rfl, by simp [declared, parseU32_eq], rfl, rfl⟩

theorem reach_snoc_last {more : List Byte → Prop} {args : List Byte} (h : Reach more args) (hne : args ≠ []) :
    more args.dropLast := by
  have := h args.dropLast (args.getLast hne) (by rw [List.dropLast_concat_getLast]; exact List.prefix_refl _)
  exact this

theorem sub_open_args {s0 : SubState} {args : List Byte} (hr : Reach (subMore s0) args) (hl : s0.metaLen < args.length) :
    ∃ hdr p, args = hdr ++ p ∧ hdr.length = s0.metaLen ∧ p ≠ [] ∧ p.length ≤ declared hdr - 2 := by
  refine ⟨args.take s0.metaLen, args.drop s0.metaLen, by simp, by simp; omega, ?_, ?_⟩
  · intro h; have := congrArg List.length h; simp at this; omega
  · have hne : args ≠ [] := by intro h; subst h; simp at hl
    rcases reach_snoc_last hr hne with h | ⟨h1, h2⟩
    · simp at h; omega
    · have ht : (args.dropLast).take s0.metaLen = args.take s0.metaLen := by
        rw [List.dropLast_eq_take, List.take_take]; congr 1; omega
      rw [ht] at h1 h2
      simp only [List.length_dropLast, List.length_drop] at *
      omega

theorem sub_closed_args {s0 : SubState} {args : List Byte} (hr : Reach (subMore s0) args) (hm : ¬ subMore s0 args)
    (hf : ¬ subFails s0 args) :
    ∃ hdr p, args = hdr ++ p ∧ hdr.length = s0.metaLen ∧ p.length = declared hdr - 2 := by
  have hlen : s0.metaLen ≤ args.length := by
    rcases Nat.lt_or_ge args.length s0.metaLen with h | h
    · exact absurd (.inl h) hm
    · exact h
  rcases Nat.eq_or_lt_of_le hlen with he | hlt
  · refine ⟨args, [], by simp, he.symm, ?_⟩
    simp only [List.length_nil]
    have h2 : ¬ declared args < 2 := fun h => hf ⟨he.symm, h⟩
    have h3 : args.take s0.metaLen = args := by rw [he]; simp
    have : ¬ (2 ≤ declared args ∧ args.length < s0.metaLen + (declared args - 2)) := by
      intro h; exact hm (.inr (by rw [h3]; exact h))
    omega
  · obtain ⟨hdr, p, h1, h2, h3, h4⟩ := sub_open_args hr hlt
    refine ⟨hdr, p, h1, h2, ?_⟩
    have ht : args.take s0.metaLen = hdr := by rw [h1, ← h2]; simp
    have : ¬ (2 ≤ declared hdr ∧ args.length < s0.metaLen + (declared hdr - 2)) := by
      intro h; exact hm (.inr (by rw [ht]; exact h))
    have hp := List.length_pos_iff.2 h3
    have hl2 : args.length = hdr.length + p.length := by rw [h1]; simp
    omega

theorem withoutCan {src d} (h : StripCan src d) : WithoutCan src d := by
  induction h with
  | nil => exact .nil
  | byte _ hb ih => exact .byte ih hb
  | can _ hb ih => exact .can ih hb

theorem lead_head {u : List Byte} (h : isLead u = true) : ∃ b ∈ u.head?, b = 16 ∨ b = 27 ∨ b = 28 ∨ b = 29 := by
  rcases u with _ | ⟨b, u⟩
  · simp [isLead, CommandSet.leads] at h
  · refine ⟨b, by simp, ?_⟩
    simpa [isLead, CommandSet.leads, escPos, unknownCmd] using h

theorem seg_default {c src} (h : DefaultAs c src) : Seg wire src [c] := by
  cases h with
  | text h1 h2 => exact .text (withoutCan h1) h2
  | unknown h1 h2 h3 => exact .unknown (lead_head h1) (withoutCan h3)

theorem last_default {c src} (h : DefaultAs c src) : Last wire src [c] := by
  cases h with
  | text h1 h2 => exact .text (withoutCan h1) h2
  | unknown h1 h2 h3 => exact .unknown (lead_head h1) (withoutCan h3)

theorem seg_wire {c : Command} {src} (hw : wire c = src) (hk : c.kind ≠ .subcommand) : Seg wire src (emitted c) := by
  rw [emitted_plain hk, ← hw]; exact .command

theorem last_wire {c : Command} {src} (hw : wire c = src) (hk : c.kind ≠ .subcommand) : Last wire src (emitted c) := by
  rw [emitted_plain hk, ← hw]; exact .command

theorem fixed_facts : ∀ c ∈ escPosCommands, c.dataKind.arity ≠ none → c.kind ≠ .subcommand ∧
    (match c.handler with | .barcode _ => false | .bitImage _ => false | .raster _ => false | _ => true) = true := by
  decide +kernel

/-- The shown bytes of a barcode that is not a function A barcode -/
theorem barcode_wire {k : Byte} {rest : List Byte} (hr : Reach barcodeMore (k :: rest))
    (hk : barcodeEncoding k ≠ .nulTerminated) : wire (barcodeAfter (k :: rest)) = [0x1D, 0x6B] ++ (k :: rest) := by
  unfold barcodeAfter
  rcases he : barcodeEncoding k with _ | _ | _
  · exact absurd he hk
  · rcases rest with _ | ⟨n, d⟩ <;>
      simp [he, wire, Command.getCommandBytes, barcodeCmd, barcodeState, he, GS, ch]
  · have : rest = [] := by
      rcases rest with _ | ⟨x, rest⟩
      · rfl
      · have := hr [k] x ⟨rest, by simp⟩
        simp [barcodeMore, he] at this
    subst this
    simp [he, wire, Command.getCommandBytes, barcodeCmd, barcodeState, he, GS, ch]

theorem barcode_wireA {k : Byte} {rest : List Byte}
    (hk : barcodeEncoding k = .nulTerminated) : wire (barcodeAfter (k :: rest)) = [0x1D, 0x6B] ++ (k :: rest) ++ [0] := by
  unfold barcodeAfter
  simp [hk, wire, Command.getCommandBytes, barcodeCmd, barcodeState, hk, GS, ch, NUL]

theorem barcode_wire_closed {args : List Byte} (hr : Reach barcodeMore args) (hm : ¬ barcodeMore args) :
    wire (barcodeClosed args) = [0x1D, 0x6B] ++ args := by
  rcases args with _ | ⟨k, rest⟩
  · exact absurd trivial hm
  · unfold barcodeClosed
    by_cases hk : barcodeEncoding k = .nulTerminated
    · have hl : rest.getLast? = some 0 := by
        simp only [barcodeMore, hk] at hm
        simpa using hm
      obtain ⟨ini, rfl⟩ : ∃ ini, rest = ini ++ [0] := List.getLast?_eq_some_iff.1 hl
      simp [hk, wire, Command.getCommandBytes, barcodeCmd, barcodeState, hk, GS, ch, NUL]
    · have := barcode_wire hr hk
      rcases he : barcodeEncoding k with _ | _ | _
      · exact absurd he hk
      · simpa [he] using this
      · simpa [he] using this

theorem barcode_kind (args : List Byte) : (barcodeAfter args).kind ≠ .subcommand ∧ (barcodeClosed args).kind ≠ .subcommand := by
  have h1 : ∀ args, (barcodeAfter args).kind ≠ .subcommand := by
    intro args
    unfold barcodeAfter
    repeat' split
    all_goals simp [barcodeCmd]
  refine ⟨h1 args, ?_⟩
  rcases args with _ | ⟨k, rest⟩
  · simp [barcodeClosed, barcodeCmd]
  · unfold barcodeClosed
    dsimp only
    split
    · simp [barcodeCmd]
    · exact h1 _

theorem bitImage_wire (args : List Byte) : wire (bitImageAfter args) = [0x1B, 0x2A] ++ args ∧
    (bitImageAfter args).kind ≠ .subcommand := by
  unfold bitImageAfter
  split
  · constructor
    · simp [wire, Command.getCommandBytes, bitImageCmd, bitImageState, ESC, ch]
    · simp [bitImageCmd]
  · constructor
    · simp [wire, Command.getCommandBytes, bitImageCmd, ESC, ch]
    · simp [bitImageCmd]

theorem raster_wire (args : List Byte) : wire (rasterAfter args) = [0x1D, 0x76, 0x30] ++ args ∧
    (rasterAfter args).kind ≠ .subcommand := by
  unfold rasterAfter
  split
  · constructor
    · simp [wire, Command.getCommandBytes, rasterBitImageCmd, rasterState, GS, ch]
    · simp [rasterBitImageCmd]
  · constructor
    · simp [wire, Command.getCommandBytes, rasterBitImageCmd, GS, ch]
    · simp [rasterBitImageCmd]

/-- closed sub-command of a table -/
theorem seg_sub_closed {base : Command} {s0 : SubState} {op hdr p : List Byte} {m fn : Byte}
    (hk : base.kind = .subcommand) (hop : base.commands = op)
    (hl : hdr.length = s0.metaLen) (hH : Header op hdr m fn p.length) (hno : op ≠ [0x1D, 0x28, 0x48])
    (hf : s0.select (metaM hdr) (metaFn hdr) = selected op m fn) :
    Seg wire (op ++ (hdr ++ p)) (emitted (subClosed base s0 (hdr ++ p))) := by
  rw [emitted_sub_closed hk hl hf]
  rcases hs : selected op m fn with _ | f
  · simp only [Option.map_none, Option.toList_none]
    rw [← List.append_assoc]
    exact .dropped hH rfl hno hs
  · have : wire (subCommand f (base.commands ++ hdr) p) = op ++ (hdr ++ p) := by
      simp [wire, subCommand, Command.getCommandBytes, hop]
    simp only [Option.map_some, Option.toList_some]
    rw [← this]
    exact .command

theorem last_sub_open {base : Command} {s0 : SubState} {op hdr p : List Byte} {m fn : Byte} {n : Nat}
    (hi : SubInit base s0)
    (hk : base.kind = .subcommand) (hop : base.commands = op)
    (hl : hdr.length = s0.metaLen) (hH : Header op hdr m fn n) (hp : p ≠ []) (hpn : p.length ≤ n) (hno : op ≠ [0x1D, 0x28, 0x48])
    (hf : s0.select (metaM hdr) (metaFn hdr) = selected op m fn) :
    Last wire (op ++ (hdr ++ p)) (emitted (subAfter base s0 (hdr ++ p))) := by
  rw [emitted_sub_after hi hk hl hf ?_, if_neg hp]
  · rw [← List.append_assoc]
    rcases hs : selected op m fn with _ | f
    · simp only [Option.map_none, Option.toList_none]
      exact .subDropped hH hpn hno hs
    · simp only [Option.map_some, Option.toList_some]
      rw [hop]
      exact .subHeader hH hpn hp hs
  · intro g hg
    unfold selected at hg
    split at hg
    · exact code2dImplemented_data m fn g hg
    · exact graphicsFunction_data fn g hg

theorem last_sub_cut {base : Command} {s0 : SubState} {op args : List Byte}
    (hi : SubInit base s0) (hk : base.kind = .subcommand)
    (hl : args.length ≤ s0.metaLen) (hs : op ∈ subOpcodes) (hno : op ≠ [0x1D, 0x28, 0x48])
    (hn : s0.metaLen = if op = [0x1D, 0x38, 0x4C] then 6 else 4) :
    Last wire (op ++ args) (emitted (subAfter base s0 args)) := by
  have : emitted (subAfter base s0 args) = [] := by
    unfold subAfter
    rw [if_pos hl]
    simp [emitted, hk, hi.handler, Handler.getSubcommand, hi.none_]
  rw [this]
  exact .subCut hs hno (by rw [← hn]; exact hl)

theorem seg_request {args : List Byte} (hr : Reach (subMore { table := .none, isLarge := false, useM := false }) args)
    (hm : ¬ subMore { table := .none, isLarge := false, useM := false } args)
    (hf : ¬ subFails { table := .none, isLarge := false, useM := false } args) :
    Seg wire ([0x1D, 0x28, 0x48] ++ args) (emitted (subClosed requestResponseTransmissionCmd
      { table := .none, isLarge := false, useM := false } args)) := by
  obtain ⟨hdr, p, rfl, h2, h3⟩ := sub_closed_args hr hm hf
  obtain ⟨pl, ph, m, fn, rfl, hd, -, -⟩ := hdr4 h2
  rw [emitted_plain (by simp only [subClosed]; split <;> simp [requestResponseTransmissionCmd])]
  rw [← List.append_assoc]
  refine .request (.small pl ph m fn (by simp)) (by rw [h3, hd]) ?_
  have hs : ∀ d, (SubState.parsed { table := .none, isLarge := false, useM := false } d).subcommand = none := by
    intro d; rfl
  simp [subClosed, hs, wire, Command.getCommandBytes, requestResponseTransmissionCmd, SubState.metaLen, GS, ch]

theorem last_request {args : List Byte} (hr : Reach (subMore { table := .none, isLarge := false, useM := false }) args) :
    Last wire ([0x1D, 0x28, 0x48] ++ args) (emitted (subAfter requestResponseTransmissionCmd
      { table := .none, isLarge := false, useM := false } args)) := by
  rw [emitted_plain (by simp only [subAfter]; split <;> simp [requestResponseTransmissionCmd])]
  by_cases hl : args.length ≤ 4
  · have : wire (subAfter requestResponseTransmissionCmd { table := .none, isLarge := false, useM := false } args) =
        [0x1D, 0x28, 0x48] ++ args := by
      unfold subAfter
      rw [if_pos (by simpa [SubState.metaLen] using hl)]
      simp [wire, Command.getCommandBytes, requestResponseTransmissionCmd, GS, ch]
    rw [← this]
    exact .command
  · obtain ⟨hdr, p, rfl, h2, h3, h4⟩ := sub_open_args hr (by simp [SubState.metaLen]; omega)
    obtain ⟨pl, ph, m, fn, rfl, hd, -, -⟩ := hdr4 h2
    rw [← List.append_assoc]
    refine .request (.small pl ph m fn (by simp)) (by rw [← hd]; exact h4) ?_
    unfold subAfter
    rw [if_neg (by simpa [SubState.metaLen] using hl)]
    simp [wire, Command.getCommandBytes, requestResponseTransmissionCmd, SubState.metaLen, GS, ch]

theorem wire_default_handler {c : Command} (h : (match c.handler with
    | .barcode _ => false | .bitImage _ => false | .raster _ => false | _ => true) = true) :
    wire c = c.commands ++ c.data := by
  unfold wire Command.getCommandBytes
  cases hh : c.handler <;> simp_all

theorem seg_closed {c src} (h : ClosedAs c src) : Seg wire src (emitted c) := by
  obtain ⟨base, hb, A, hA, args, hr, hm, hf, rfl, rfl⟩ := h
  cases hA with
  | @fixed _ n hn hd hb' =>
    obtain ⟨h1, h2⟩ := fixed_facts base hb (by simp [hn])
    exact seg_wire (c := { base with data := args }) (wire_fixed h2 args) h1
  | cut => exact seg_wire (c := { feedAndCutCmd with data := args }) (wire_default_handler rfl) (by simp [feedAndCutCmd])
  | page =>
    have : args = [] := by
      rcases args with _ | ⟨b, args⟩
      · rfl
      · exact (hr [] b ⟨args, by simp⟩).elim
    subst this
    exact seg_wire (c := pageModePrintDataCmd) (wire_default_handler rfl) (by simp [pageModePrintDataCmd])
  | effects =>
    exact seg_wire (c := { setCharacterEffectsCmd with data := args, handler := .charEffects _ })
      (wire_default_handler rfl) (by simp [setCharacterEffectsCmd])
  | barcode => exact seg_wire (barcode_wire_closed hr hm) (barcode_kind args).2
  | bitImage => exact seg_wire (bitImage_wire args).1 (bitImage_wire args).2
  | raster => exact seg_wire (raster_wire args).1 (raster_wire args).2
  | graphics =>
    obtain ⟨hdr, p, rfl, h2, h3⟩ := sub_closed_args hr hm hf
    obtain ⟨pl, ph, m, fn, rfl, hd, e1, e2⟩ := hdr4 h2
    refine seg_sub_closed (op := [0x1D, 0x28, 0x4C]) (m := m) (fn := fn) rfl rfl h2 ?_ (by decide) (by rw [e1, e2]; exact detectKind_graphics fn)
    rw [h3, hd]; exact .small pl ph m fn (by simp)
  | code2d =>
    obtain ⟨hdr, p, rfl, h2, h3⟩ := sub_closed_args hr hm hf
    obtain ⟨pl, ph, m, fn, rfl, hd, e1, e2⟩ := hdr4 h2
    refine seg_sub_closed (op := [0x1D, 0x28, 0x6B]) (m := m) (fn := fn) rfl rfl h2 ?_ (by decide) (by rw [e1, e2]; exact detectKind_code2d m fn)
    rw [h3, hd]; exact .small pl ph m fn (by simp)
  | large =>
    obtain ⟨hdr, p, rfl, h2, h3⟩ := sub_closed_args hr hm hf
    obtain ⟨p1, p2, p3, p4, m, fn, rfl, hd, e1, e2⟩ := hdr6 h2
    refine seg_sub_closed (op := [0x1D, 0x38, 0x4C]) (m := m) (fn := fn) rfl rfl h2 ?_ (by decide) (by rw [e1, e2]; exact detectKind_graphics fn)
    rw [h3, hd]; exact .large p1 p2 p3 p4 m fn
  | request => exact seg_request hr hm hf

theorem last_opened {c src} (h : OpenAs c src) : Last wire src (emitted c) := by
  obtain ⟨base, hb, A, hA, args, hr, rfl, rfl⟩ := h
  cases hA with
  | @fixed _ n hn hd hb' =>
    obtain ⟨h1, h2⟩ := fixed_facts base hb (by simp [hn])
    exact last_wire (c := { base with data := args }) (wire_fixed h2 args) h1
  | cut => exact last_wire (c := { feedAndCutCmd with data := args }) (wire_default_handler rfl) (by simp [feedAndCutCmd])
  | page =>
    have : args = [] := by
      rcases args with _ | ⟨b, args⟩
      · rfl
      · exact (hr [] b ⟨args, by simp⟩).elim
    subst this
    exact last_wire (c := pageModePrintDataCmd) (wire_default_handler rfl) (by simp [pageModePrintDataCmd])
  | effects =>
    exact last_wire (c := { setCharacterEffectsCmd with data := args, handler := .charEffects _ })
      (wire_default_handler rfl) (by simp [setCharacterEffectsCmd])
  | barcode =>
    rcases args with _ | ⟨k, rest⟩
    · exact last_wire (c := barcodeCmd) (by decide) (by decide)
    · by_cases hk : barcodeEncoding k = .nulTerminated
      · show Last wire _ (emitted (barcodeAfter (k :: rest)))
        rw [emitted_plain (barcode_kind _).1]
        have hk6 : k ≤ 6 := by
          unfold barcodeEncoding at hk
          split at hk
          · assumption
          · split at hk <;> simp at hk
        have := barcode_wireA (rest := rest) hk
        exact Last.barcodeA (m := k) (rest := rest) hk6 (by simp [barcodeAfter, hk, barcodeCmd, GS, ch])
          (by simp [barcodeAfter, hk]) (by simpa using this)
      · exact last_wire (barcode_wire hr hk) (barcode_kind _).1
  | bitImage => exact last_wire (bitImage_wire args).1 (bitImage_wire args).2
  | raster => exact last_wire (raster_wire args).1 (raster_wire args).2
  | graphics =>
    by_cases hl : args.length ≤ 4
    · exact last_sub_cut (op := [0x1D, 0x28, 0x4C]) subInit_graphics rfl hl (by decide) (by decide) rfl
    · obtain ⟨hdr, p, rfl, h2, h3, h4⟩ := sub_open_args hr (by simp [SubState.metaLen]; omega)
      obtain ⟨pl, ph, m, fn, rfl, hd, e1, e2⟩ := hdr4 h2
      rw [hd] at h4
      exact last_sub_open (op := [0x1D, 0x28, 0x4C]) subInit_graphics rfl rfl h2 (.small pl ph m fn (by simp)) h3 h4 (by decide)
        (by rw [e1, e2]; exact detectKind_graphics fn)
  | code2d =>
    by_cases hl : args.length ≤ 4
    · exact last_sub_cut (op := [0x1D, 0x28, 0x6B]) subInit_code2d rfl hl (by decide) (by decide) rfl
    · obtain ⟨hdr, p, rfl, h2, h3, h4⟩ := sub_open_args hr (by simp [SubState.metaLen]; omega)
      obtain ⟨pl, ph, m, fn, rfl, hd, e1, e2⟩ := hdr4 h2
      rw [hd] at h4
      exact last_sub_open (op := [0x1D, 0x28, 0x6B]) subInit_code2d rfl rfl h2 (.small pl ph m fn (by simp)) h3 h4 (by decide)
        (by rw [e1, e2]; exact detectKind_code2d m fn)
  | large =>
    by_cases hl : args.length ≤ 6
    · exact last_sub_cut (op := [0x1D, 0x38, 0x4C]) subInit_large rfl hl (by decide) (by decide) rfl
    · obtain ⟨hdr, p, rfl, h2, h3, h4⟩ := sub_open_args hr (by simp [SubState.metaLen]; omega)
      obtain ⟨p1, p2, p3, p4, m, fn, rfl, hd, e1, e2⟩ := hdr6 h2
      rw [hd] at h4
      exact last_sub_open (op := [0x1D, 0x38, 0x4C]) subInit_large rfl rfl h2 (.large p1 p2 p3 p4 m fn) h3 h4 (by decide)
        (by rw [e1, e2]; exact detectKind_graphics fn)
  | request => exact last_request hr

theorem segs_pieces {src cmds} (h : Pieces src cmds) : Segs wire src cmds := by
  induction h with
  | nil => exact .nil
  | snoc _ hp ih =>
    refine .snoc ih ?_
    cases hp with
    | blank => exact .blank
    | deflt h => exact seg_default h
    | closed h => exact seg_closed h

end Thermal
