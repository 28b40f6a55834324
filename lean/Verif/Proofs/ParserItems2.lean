import Verif.Proofs.ParserItems
import Verif.Proofs.Util
/-
Every well-formed non-text item is read by its automaton.
-/
namespace Thermal
set_option linter.unusedSimpArgs false
open Spec

theorem toNat_ofNat (n : Nat) : (UInt8.ofNat n).toNat = n % 256 := UInt8.toNat_ofNat'

theorem lo_hi {n : Nat} (h : n < 65536) : (lo n).toNat + (hi n).toNat * 256 = n := by
  simp only [lo, hi, toNat_ofNat]; omega

theorem lo_hi4 {n : Nat} (h : n < 4294967296) :
    (lo n).toNat + (hi n).toNat * 256 + (hi2 n).toNat * 65536 + (hi3 n).toNat * 16777216 = n := by
  simp only [lo, hi, hi2, hi3, toNat_ofNat]; omega

/-- the facts about a non-text item -/
def ReadBy (it : Item) : Prop :=
  ∃ base ∈ escPosCommands, ∃ A : Auto base, ∃ args, it.bytes = base.commands ++ args ∧
    Reach A.more args ∧ ¬ A.more args ∧ ¬ A.fails args ∧
    emitted (A.closed args) = it.commands ∧ emitted (A.after args) = it.commandsAtEnd

theorem reach_of {more : List Byte → Prop} {args : List Byte}
    (h : ∀ p q, p ++ q = args → q ≠ [] → more p) : Reach more args := by
  intro p b ⟨q, hq⟩
  exact h p (b :: q) (by simpa using hq) (by simp)

theorem readBy_fixed {c args} (h : (Item.fixed c args).WF) : ReadBy (.fixed c args) := by
  obtain ⟨hc, hn⟩ := h
  have hn' : c.dataKind.arity = some args.length := by
    rw [← hn]; cases c.dataKind <;> rfl
  have hkind : ∀ c ∈ escPosCommands, c.dataKind.arity ≠ none → c.kind ≠ .subcommand := by decide +kernel
  have hk : c.kind ≠ .subcommand := hkind c hc (by simp [hn'])
  refine ⟨c, hc, Auto.fixed c args.length hn' (table_data_empty c hc), args, rfl, ?_, ?_, ?_, ?_, ?_⟩
  · apply reach_of
    intro p q hpq hq
    show p.length < args.length
    rw [← hpq, List.length_append]
    have := List.length_pos_iff.2 hq
    omega
  · show ¬ args.length < args.length
    omega
  · exact fun h => h
  · exact emitted_plain hk
  · exact emitted_plain hk

theorem readBy_page : ReadBy .pagePrint := by
  refine ⟨pageModePrintDataCmd, by decide +kernel, Auto.page, [], rfl, Reach.nil, fun h => h, fun h => h, rfl, rfl⟩

theorem readBy_cut {m} (h : (Item.cut m).WF) : ReadBy (.cut m) := by
  refine ⟨feedAndCutCmd, by decide +kernel, Auto.cut, [m], rfl, ?_, ?_, fun h => h, rfl, rfl⟩
  · exact Reach.snoc (args := []) Reach.nil (.inl rfl)
  · rintro (h1 | ⟨d, h1, h2⟩)
    · simp at h1
    · simp only [List.cons.injEq, and_true] at h1; subst h1
      apply h2
      rcases h with h | h | h | h <;> simp [h]

theorem readBy_feedCut {m n} (h : (Item.feedCut m n).WF) : ReadBy (.feedCut m n) := by
  refine ⟨feedAndCutCmd, by decide +kernel, Auto.cut, [m, n], rfl, ?_, ?_, fun h => h, rfl, rfl⟩
  · refine Reach.snoc (args := [m]) (Reach.snoc (args := []) Reach.nil (.inl rfl)) (.inr ⟨m, rfl, ?_⟩)
    intro h1; apply h
    rcases h1 with h1 | h1 | h1 | h1 <;> simp [h1]
  · rintro (h1 | ⟨d, h1, h2⟩) <;> simp at h1

theorem readBy_effects {body} (h : (Item.effects body).WF) : ReadBy (.effects body) := by
  obtain ⟨hne, hlt⟩ := h
  have hp := List.length_pos_iff.2 hne
  have hlh := lo_hi hlt
  have hlen : ∀ r, effectsLen (lo body.length :: hi body.length :: r) = body.length + 2 := by
    intro r; simp only [effectsLen, List.getD_cons_zero, List.getD_cons_succ]; omega
  have heq : emitted (Auto.effects.closed (lo body.length :: hi body.length :: body)) =
      (Item.effects body).commands := by
    show emitted { setCharacterEffectsCmd with
      data := lo body.length :: hi body.length :: body
      handler := .charEffects (if (lo body.length :: hi body.length :: body).length < 3 then 2
        else effectsLen (lo body.length :: hi body.length :: body)) } = _
    rw [hlen, if_neg (by simp; omega), emitted_plain (by simp [setCharacterEffectsCmd])]
    rfl
  refine ⟨setCharacterEffectsCmd, by decide +kernel, Auto.effects, lo body.length :: hi body.length :: body, rfl,
    ?_, ?_, fun h => h, heq, heq⟩
  · apply reach_of
    intro p q hpq hq
    have hq := List.length_pos_iff.2 hq
    show p.length < 3 ∨ p.length < effectsLen p
    match p, hpq with
    | [], _ => simp
    | [x], _ => simp
    | x :: y :: r, hpq =>
      simp only [List.cons_append, List.cons.injEq] at hpq
      obtain ⟨rfl, rfl, h3⟩ := hpq
      rw [hlen]
      have := congrArg List.length h3
      simp only [List.length_append] at this
      right; simp; omega
  · show ¬ (_ ∨ _)
    rw [hlen]; simp; omega

theorem readBy_barcodeA {m data} (h : (Item.barcodeA m data).WF) : ReadBy (.barcodeA m data) := by
  obtain ⟨hm, hd⟩ := h
  have he : barcodeEncoding m = .nulTerminated := by simp [barcodeEncoding, hm]
  refine ⟨barcodeCmd, by decide +kernel, Auto.barcode, m :: (data ++ [0]), by simp [Item.bytes, barcodeCmd], ?_, ?_,
    fun h => h, ?_, ?_⟩
  · apply reach_of
    intro p q hpq hq
    show barcodeMore p
    match p, hpq with
    | [], _ => trivial
    | x :: r, hpq =>
      simp only [List.cons_append, List.cons.injEq] at hpq
      obtain ⟨rfl, h3⟩ := hpq
      simp only [barcodeMore, he]
      intro hl
      have hpre : r <+: data := by
        have : r <+: data ++ [0] := ⟨q, h3⟩
        rcases List.prefix_concat_iff.1 this with h4 | h4
        · rw [h4] at h3
          have h5 := congrArg List.length h3
          have h6 := List.length_pos_iff.2 hq
          simp only [List.length_append] at h5; omega
        · exact h4
      exact hd 0 (hpre.subset (List.mem_of_getLast? hl)) rfl
  · show ¬ barcodeMore (m :: (data ++ [0]))
    simp [barcodeMore, he]
  · show emitted (barcodeClosed _) = _
    simp [barcodeClosed, he, emitted, barcodeCmd, Item.commands, barcodeCommand, barcodeState, hm]
  · show emitted (barcodeAfter _) = _
    simp [barcodeAfter, he, emitted, barcodeCmd, Item.commandsAtEnd, barcodeCommand, barcodeState, hm]

theorem readBy_barcodeB {m data} (h : (Item.barcodeB m data).WF) : ReadBy (.barcodeB m data) := by
  obtain ⟨hm, hm2, hd⟩ := h
  have hnot : ¬ m ≤ 6 := by
    rw [UInt8.le_iff_toNat_le] at hm ⊢
    have : (65 : UInt8).toNat = 65 := rfl
    have : (6 : UInt8).toNat = 6 := rfl
    omega
  have he : barcodeEncoding m = .explicitSize := by simp [barcodeEncoding, hm, hm2, hnot]
  have hl : (UInt8.ofNat data.length).toNat = data.length := by rw [toNat_ofNat]; omega
  have heq : emitted (barcodeAfter (m :: UInt8.ofNat data.length :: data)) = (Item.barcodeB m data).commands := by
    simp [barcodeAfter, he, emitted, barcodeCmd, Item.commands, barcodeCommand, barcodeState, hnot]
  refine ⟨barcodeCmd, by decide +kernel, Auto.barcode, m :: UInt8.ofNat data.length :: data, by simp [Item.bytes, barcodeCmd], ?_, ?_,
    fun h => h, ?_, heq⟩
  · apply reach_of
    intro p q hpq hq
    show barcodeMore p
    have hq := List.length_pos_iff.2 hq
    match p, hpq with
    | [], _ => trivial
    | [x], hpq =>
      simp only [List.cons_append, List.cons.injEq] at hpq
      obtain ⟨rfl, h3⟩ := hpq
      simp [barcodeMore, he]
    | x :: y :: r, hpq =>
      simp only [List.cons_append, List.cons.injEq] at hpq
      obtain ⟨rfl, rfl, h3⟩ := hpq
      simp only [barcodeMore, he, hl]
      have := congrArg List.length h3
      simp only [List.length_append] at this
      omega
  · show ¬ barcodeMore (m :: UInt8.ofNat data.length :: data)
    simp [barcodeMore, he, hl]
  · show emitted (barcodeClosed _) = _
    rw [← heq]; simp [barcodeClosed, he]

theorem readBy_bitImage {m w data} (h : (Item.bitImage m w data).WF) : ReadBy (.bitImage m w data) := by
  obtain ⟨hw, hd⟩ := h
  have hlh := lo_hi hw
  have hb : bytesPerColumn m = bitImageBytes m := rfl
  have heq : emitted (bitImageAfter (m :: lo w :: hi w :: data)) = (Item.bitImage m w data).commands := by
    have h8 : (if m = 32 ∨ m = 33 then 24 else 8) = 8 * bitImageBytes m := by unfold bitImageBytes; split <;> rfl
    simp [bitImageAfter, emitted, bitImageCmd, Item.commands, bitImageState, hlh, hb, hd, h8]
  refine ⟨bitImageCmd, by decide +kernel, Auto.bitImage, m :: lo w :: hi w :: data, by simp [Item.bytes, bitImageCmd], ?_, ?_,
    fun h => h, heq, heq⟩
  · apply reach_of
    intro p q hpq hq
    show bitImageMore p
    have hq := List.length_pos_iff.2 hq
    match p, hpq with
    | [], _ => trivial
    | [x], _ => trivial
    | [x, y], _ => trivial
    | x :: y :: z :: r, hpq =>
      simp only [List.cons_append, List.cons.injEq] at hpq
      obtain ⟨rfl, rfl, rfl, h3⟩ := hpq
      simp only [bitImageMore, hlh, ← hb, ← hd]
      have := congrArg List.length h3
      simp only [List.length_append] at this
      omega
  · show ¬ bitImageMore (m :: lo w :: hi w :: data)
    simp only [bitImageMore, hlh, ← hb, ← hd]; omega

theorem readBy_raster {m w h data} (hwf : (Item.raster m w h data).WF) : ReadBy (.raster m w h data) := by
  obtain ⟨hw, hh, hd⟩ := hwf
  have hlh := lo_hi hw
  have hlh2 := lo_hi hh
  have heq : emitted (rasterAfter (m :: lo w :: hi w :: lo h :: hi h :: data)) = (Item.raster m w h data).commands := by
    simp [rasterAfter, emitted, rasterBitImageCmd, Item.commands, rasterState, hlh, hlh2, hd]
  refine ⟨rasterBitImageCmd, by decide +kernel, Auto.raster, m :: lo w :: hi w :: lo h :: hi h :: data,
    by simp [Item.bytes, rasterBitImageCmd], ?_, ?_, fun h => h, heq, heq⟩
  · apply reach_of
    intro p q hpq hq
    show rasterMore p
    have hq := List.length_pos_iff.2 hq
    match p, hpq with
    | [], _ => trivial
    | [_], _ => trivial
    | [_, _], _ => trivial
    | [_, _, _], _ => trivial
    | [_, _, _, _], _ => trivial
    | x :: y :: z :: u :: v :: r, hpq =>
      simp only [List.cons_append, List.cons.injEq] at hpq
      obtain ⟨rfl, rfl, rfl, rfl, rfl, h3⟩ := hpq
      simp only [rasterMore, hlh, hlh2, ← hd]
      have := congrArg List.length h3
      simp only [List.length_append] at this
      omega
  · show ¬ rasterMore (m :: lo w :: hi w :: lo h :: hi h :: data)
    simp only [rasterMore, hlh, hlh2, ← hd]; omega

/-- the common part for all sub-commands: header `hdr` declares the payload -/
theorem sub_reach {s0 : SubState} {hdr payload : List Byte} (hl : hdr.length = s0.metaLen)
    (hdec : declared hdr = payload.length + 2) :
    Reach (subMore s0) (hdr ++ payload) ∧ ¬ subMore s0 (hdr ++ payload) ∧ ¬ subFails s0 (hdr ++ payload) := by
  have htake : ∀ r, (hdr ++ r).take s0.metaLen = hdr := by intro r; rw [← hl]; simp
  refine ⟨?_, ?_, ?_⟩
  · apply reach_of
    intro p q hpq hq
    have hq := List.length_pos_iff.2 hq
    have hlen := congrArg List.length hpq
    simp only [List.length_append] at hlen
    by_cases h1 : p.length < s0.metaLen
    · exact .inl h1
    · right
      have : p.take s0.metaLen = hdr := by
        have h2 : (p ++ q).take s0.metaLen = p.take s0.metaLen := List.take_append_of_le_length (by omega)
        rw [← h2, hpq, htake]
      rw [this, hdec]; omega
  · rintro (h1 | h1)
    · simp only [List.length_append] at h1; omega
    · rw [htake, hdec, List.length_append] at h1; omega
  · rintro ⟨h1, h2⟩
    simp only [List.length_append] at h1
    have : payload = [] := List.length_eq_zero_iff.1 (by omega)
    subst this
    rw [List.append_nil, hdec] at h2; simp at h2

theorem emitted_sub_closed {base : Command} {s0 : SubState} {hdr payload : List Byte} 
    (hk : base.kind = .subcommand) (hl : hdr.length = s0.metaLen)
    {f : Option SubCmd} (hf : s0.select (metaM hdr) (metaFn hdr) = f) :
    emitted (subClosed base s0 (hdr ++ payload)) =
      (f.map (fun f => subCommand f (base.commands ++ hdr) payload)).toList := by
  have htake : (hdr ++ payload).take s0.metaLen = hdr := by rw [← hl]; simp
  have hdrop : (hdr ++ payload).drop s0.metaLen = payload := by rw [← hl]; simp
  unfold subClosed
  simp only [htake, hdrop, SubState.parsed, hf]
  rcases f with _ | f
  · simp [emitted, hk, Handler.getSubcommand]
  · simp [emitted, hk, Handler.getSubcommand, SubCmd.toCommand, subCommand]

theorem emitted_sub_after {base : Command} {s0 : SubState} {hdr payload : List Byte} (hi : SubInit base s0)
    (hk : base.kind = .subcommand) (hl : hdr.length = s0.metaLen)
    {f : Option SubCmd} (hf : s0.select (metaM hdr) (metaFn hdr) = f) (hfd : ∀ g, f = some g → g.data = []) :
    emitted (subAfter base s0 (hdr ++ payload)) = if payload = [] then [] else
      (f.map (fun f => subCommand f (base.commands ++ hdr) [])).toList := by
  have htake : (hdr ++ payload).take s0.metaLen = hdr := by rw [← hl]; simp
  have hdrop : (hdr ++ payload).drop s0.metaLen = payload := by rw [← hl]; simp
  unfold subAfter
  by_cases hp : payload = []
  · subst hp
    rw [if_pos (by simp [hl]), if_pos rfl]
    simp [emitted, hk, hi.handler, Handler.getSubcommand, hi.none_]
  · have := List.length_pos_iff.2 hp
    rw [if_neg (by simp only [List.length_append]; omega), if_neg hp, htake, hdrop]
    simp only [SubState.parsed, hf]
    rcases f with _ | f
    · simp [emitted, hk, Handler.getSubcommand]
    · simp [emitted, hk, Handler.getSubcommand, SubCmd.toCommand, subCommand, hfd f rfl]

theorem graphicsFunction_data (fn : Byte) : ∀ g, graphicsFunction fn = some g → g.data = [] := by
  refine byte_all (P := fun fn => ∀ g, graphicsFunction fn = some g → g.data = []) ?_ fn
  intro n hn g hg
  have key : ∀ n < 256, ((graphicsFunction (UInt8.ofNat n)).map SubCmd.data).getD [] = [] := by decide +kernel
  have := key n hn
  rw [hg] at this; simpa using this

theorem detectKindUseM_mem (t : List SubCmd) (m id : Byte) (prev : Option SubCmd) (g) :
    detectKindUseM t m id prev = some g → g ∈ t ∨ prev = some g := by
  induction t generalizing prev with
  | nil => intro h; exact .inr h
  | cons c t ih =>
    intro h
    have := ih _ h
    rcases this with h1 | h1
    · exact .inl (by simp [h1])
    · dsimp only at h1
      repeat' split at h1
      all_goals first
        | exact .inr h1
        | (simp only [Option.some.injEq] at h1; subst h1; exact .inl (by simp))

theorem code2dImplemented_data (m fn : Byte) : ∀ g, code2dImplemented m fn = some g → g.data = [] := by
  intro g hg
  rw [← detectKind_code2d] at hg
  have key : ∀ c ∈ gsCode2dAll, c.data = [] := by decide +kernel
  rcases detectKindUseM_mem _ _ _ _ _ hg with h | h
  · exact key g h
  · simp at h

theorem declared_small {n : Nat} {m fn : Byte} (h : n < 65536) : declared [lo n, hi n, m, fn] = n := by
  simp [declared, parseU16_eq, lo_hi h]

theorem declared_large {n : Nat} {m fn : Byte} (h : n < 4294967296) :
    declared [lo n, hi n, hi2 n, hi3 n, m, fn] = n := by
  simp [declared, parseU32_eq, lo_hi4 h]

theorem readBy_graphics {m fn p} (h : (Item.graphics m fn p).WF) : ReadBy (.graphics m fn p) := by
  have h : p.length + 2 < 65536 := h
  have hd := declared_small (m := m) (fn := fn) h
  obtain ⟨h1, h2, h3⟩ := sub_reach (s0 := { table := .graphics, isLarge := false, useM := false })
    (hdr := [lo (p.length + 2), hi (p.length + 2), m, fn]) (payload := p) rfl hd
  refine ⟨graphicsCmd, by decide +kernel, Auto.sub _ _ subInit_graphics,
    [lo (p.length + 2), hi (p.length + 2), m, fn] ++ p, by simp [Item.bytes, small, graphicsCmd], h1, h2, h3, ?_, ?_⟩
  · exact emitted_sub_closed rfl rfl (detectKind_graphics fn)
  · exact emitted_sub_after subInit_graphics rfl rfl (detectKind_graphics fn) (graphicsFunction_data fn)

theorem readBy_large {m fn p} (h : (Item.largeGraphics m fn p).WF) : ReadBy (.largeGraphics m fn p) := by
  have h : p.length + 2 < 4294967296 := h
  have hd := declared_large (m := m) (fn := fn) h
  obtain ⟨h1, h2, h3⟩ := sub_reach (s0 := { table := .graphics, isLarge := true, useM := false })
    (hdr := [lo (p.length + 2), hi (p.length + 2), hi2 (p.length + 2), hi3 (p.length + 2), m, fn]) (payload := p) rfl hd
  refine ⟨largeGraphicsCmd, by decide +kernel, Auto.sub _ _ subInit_large,
    [lo (p.length + 2), hi (p.length + 2), hi2 (p.length + 2), hi3 (p.length + 2), m, fn] ++ p,
    by simp [Item.bytes, large, largeGraphicsCmd], h1, h2, h3, ?_, ?_⟩
  · exact emitted_sub_closed rfl rfl (detectKind_graphics fn)
  · exact emitted_sub_after subInit_large rfl rfl (detectKind_graphics fn) (graphicsFunction_data fn)

theorem readBy_code2d {m fn p} (h : (Item.code2d m fn p).WF) : ReadBy (.code2d m fn p) := by
  have h : p.length + 2 < 65536 := h
  have hd := declared_small (m := m) (fn := fn) h
  obtain ⟨h1, h2, h3⟩ := sub_reach (s0 := { table := .code2d, isLarge := false, useM := true })
    (hdr := [lo (p.length + 2), hi (p.length + 2), m, fn]) (payload := p) rfl hd
  refine ⟨code2dCmd, by decide +kernel, Auto.sub _ _ subInit_code2d,
    [lo (p.length + 2), hi (p.length + 2), m, fn] ++ p, by simp [Item.bytes, small, code2dCmd], h1, h2, h3, ?_, ?_⟩
  · exact emitted_sub_closed rfl rfl (detectKind_code2d m fn)
  · exact emitted_sub_after subInit_code2d rfl rfl (detectKind_code2d m fn) (code2dImplemented_data m fn)

theorem readBy_request {m fn p} (h : (Item.request m fn p).WF) : ReadBy (.request m fn p) := by
  have h : p.length + 2 < 65536 := h
  have hd := declared_small (m := m) (fn := fn) h
  obtain ⟨h1, h2, h3⟩ := sub_reach (s0 := { table := .none, isLarge := false, useM := false })
    (hdr := [lo (p.length + 2), hi (p.length + 2), m, fn]) (payload := p) rfl hd
  refine ⟨requestResponseTransmissionCmd, by decide +kernel, Auto.sub _ _ subInit_request,
    [lo (p.length + 2), hi (p.length + 2), m, fn] ++ p,
    by simp [Item.bytes, small, requestResponseTransmissionCmd], h1, h2, h3, ?_, ?_⟩
  · show emitted (subClosed _ _ ([lo (p.length + 2), hi (p.length + 2), m, fn] ++ p)) = _
    have hs : ∀ d, (SubState.parsed { table := .none, isLarge := false, useM := false } d).subcommand = none := by
      intro d; rfl
    unfold subClosed
    have ht : ([lo (p.length + 2), hi (p.length + 2), m, fn] ++ p).take 4 = [lo (p.length + 2), hi (p.length + 2), m, fn] := rfl
    have hdr : ([lo (p.length + 2), hi (p.length + 2), m, fn] ++ p).drop 4 = p := rfl
    simp only [SubState.metaLen, Bool.false_eq_true, if_false, ht, hdr, hs]
    rw [emitted_plain (by simp [requestResponseTransmissionCmd])]
    simp [SubState.parsed, hd, metaM, metaFn, Item.commands, requestCommand, requestResponseTransmissionCmd,
      SubState.select, SubTable.all, detectKind]
  · show emitted (subAfter _ _ ([lo (p.length + 2), hi (p.length + 2), m, fn] ++ p)) = _
    unfold subAfter
    have ht : ([lo (p.length + 2), hi (p.length + 2), m, fn] ++ p).take 4 = [lo (p.length + 2), hi (p.length + 2), m, fn] := rfl
    have hdr : ([lo (p.length + 2), hi (p.length + 2), m, fn] ++ p).drop 4 = p := rfl
    simp only [SubState.metaLen, Bool.false_eq_true, if_false, ht, hdr]
    by_cases hp : p = []
    · subst hp
      rw [if_pos (by simp), emitted_plain (by simp [requestResponseTransmissionCmd])]
      simp [Item.commandsAtEnd]; decide
    · have := List.length_pos_iff.2 hp
      rw [if_neg (by simp only [List.length_append, List.length_cons, List.length_nil]; omega), emitted_plain (by simp [requestResponseTransmissionCmd])]
      simp [SubState.parsed, hd, metaM, metaFn, Item.commandsAtEnd, requestCommand, requestResponseTransmissionCmd,
        SubState.select, SubTable.all, detectKind, hp]

theorem readBy_of_wf {it : Item} (h : it.WF) (ht : it.isText = false) : ReadBy it := by
  cases it with
  | text t => simp [Item.isText] at ht
  | fixed c args => exact readBy_fixed h
  | pagePrint => exact readBy_page
  | cut m => exact readBy_cut h
  | feedCut m n => exact readBy_feedCut h
  | effects b => exact readBy_effects h
  | barcodeA m d => exact readBy_barcodeA h
  | barcodeB m d => exact readBy_barcodeB h
  | bitImage m w d => exact readBy_bitImage h
  | raster m w h' d => exact readBy_raster h
  | graphics m fn p => exact readBy_graphics h
  | largeGraphics m fn p => exact readBy_large h
  | code2d m fn p => exact readBy_code2d h
  | request m fn p => exact readBy_request h

end Thermal
