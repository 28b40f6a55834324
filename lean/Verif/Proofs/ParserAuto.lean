import Verif.Proofs.ParserInv
/-
For every command of the table: the command as a function of the argument bytes read so far.
-/
namespace Thermal
set_option linter.unusedSimpArgs false

/-- every byte of `args` was accepted -/
def Reach (more : List Byte → Prop) (args : List Byte) : Prop := ∀ p b, (p ++ [b]) <+: args → more p

theorem Reach.nil {more} : Reach more [] := by
  intro p b h
  have := h.length_le
  simp at this

theorem Reach.snoc {more args b} (h : Reach more args) (hm : more args) : Reach more (args ++ [b]) := by
  intro p c hp
  rcases List.prefix_concat_iff.1 hp with h1 | h1
  · have := List.append_inj_left' h1 rfl
    rw [this]; exact hm
  · exact h p c h1

theorem Reach.of_snoc {more args b} (h : Reach more (args ++ [b])) : Reach more args ∧ more args :=
  ⟨fun p c hp => h p c (hp.trans (List.prefix_append _ _)), h args b (List.prefix_refl _)⟩

structure Auto (base : Command) where
  after : List Byte → Command
  more : List Byte → Prop
  fails : List Byte → Prop
  closed : List Byte → Command
  init : after [] = base
  push_more : ∀ args b, Reach more args → more args → (after args).push b = .ok (after (args ++ [b]), true)
  push_done : ∀ args b, Reach more args → ¬ more args → ¬ fails args →
    (after args).push b = .ok (closed args, false)
  push_fail : ∀ args b, Reach more args → ¬ more args → fails args → (after args).push b = .error .overflow

/-- fixed-size commands -/
def Auto.fixed (base : Command) (n : Nat) (hn : base.dataKind.arity = some n) (hd : base.data = []) : Auto base where
  after args := { base with data := args }
  more args := args.length < n
  fails _ := False
  closed args := { base with data := args }
  init := by rw [← hd]
  push_more := by
    intro args b _ hm
    unfold Command.push
    split
    · rename_i hk; simp only [] at hk; simp [hk, DataType.arity] at hn
    · rename_i hk; simp only [] at hk; simp [hk, DataType.arity] at hn
    · rename_i hk; simp only [] at hk; simp [hk, DataType.arity] at hn
    · rename_i hk; simp only [] at hk; simp [hk, DataType.arity] at hn
    · simp only [hn]
      rw [if_neg (by omega)]; rfl
  push_done := by
    intro args b _ hm _
    unfold Command.push
    split
    · rename_i hk; simp only [] at hk; simp [hk, DataType.arity] at hn
    · rename_i hk; simp only [] at hk; simp [hk, DataType.arity] at hn
    · rename_i hk; simp only [] at hk; simp [hk, DataType.arity] at hn
    · rename_i hk; simp only [] at hk; simp [hk, DataType.arity] at hn
    · simp only [hn]
      rw [if_pos (by omega)]; rfl
  push_fail := by intro _ _ _ _ h; exact h.elim

/-- GS V -/
def Auto.cut : Auto feedAndCutCmd where
  after args := { feedAndCutCmd with data := args }
  more args := args = [] ∨ ∃ d, args = [d] ∧ ¬ (d = 0 ∨ d = 48 ∨ d = 1 ∨ d = 49)
  fails _ := False
  closed args := { feedAndCutCmd with data := args }
  init := rfl
  push_more := by
    intro args b _ hm
    rcases hm with rfl | ⟨d, rfl, hd⟩
    · rfl
    · simp [Command.push, feedAndCutCmd, Handler.push, feedAndCutPush, bind, Except.bind, pure, Except.pure, hd]
  push_done := by
    intro args b _ hm _
    match args, hm with
    | [], hm => exact absurd (.inl rfl) hm
    | [d], hm =>
      have hd : d = 0 ∨ d = 48 ∨ d = 1 ∨ d = 49 := by
        rcases Classical.em (d = 0 ∨ d = 48 ∨ d = 1 ∨ d = 49) with h | h
        · exact h
        · exact absurd (.inr ⟨d, rfl, h⟩) hm
      simp [Command.push, feedAndCutCmd, Handler.push, feedAndCutPush, bind, Except.bind, pure, Except.pure, hd]
    | d :: e :: l, hm =>
      simp [Command.push, feedAndCutCmd, Handler.push, feedAndCutPush, bind, Except.bind, pure, Except.pure]
  push_fail := by intro _ _ _ _ h; exact h.elim

/-- ESC FF (custom data kind, default push) -/
def Auto.page : Auto pageModePrintDataCmd where
  after _ := pageModePrintDataCmd
  more _ := False
  fails _ := False
  closed _ := pageModePrintDataCmd
  init := rfl
  push_more := by intro _ _ _ h; exact h.elim
  push_done := by intro args b _ _ _; rfl
  push_fail := by intro _ _ _ _ h; exact h.elim

/-- declared parameter count of GS ( N, two length bytes included -/
def effectsLen (args : List Byte) : Nat := (args.getD 0 0).toNat + (args.getD 1 0).toNat * 256 + 2

/-- GS ( N -/
def Auto.effects : Auto setCharacterEffectsCmd where
  after args := { setCharacterEffectsCmd with
    data := args, handler := .charEffects (if args.length < 3 then 2 else effectsLen args) }
  more args := args.length < 3 ∨ args.length < effectsLen args
  fails _ := False
  closed args := { setCharacterEffectsCmd with
    data := args, handler := .charEffects (if args.length < 3 then 2 else effectsLen args) }
  init := rfl
  push_more := by
    intro args b _ hm
    match args, hm with
    | [], _ => rfl
    | [x], _ => rfl
    | [x, y], _ => rfl
    | x :: y :: z :: l, hm =>
      have hm : l.length + 1 + 1 + 1 < effectsLen (x :: y :: z :: l) := by
        simp only [List.length_cons] at hm; omega
      simp only [effectsLen, List.getD_cons_zero, List.getD_cons_succ] at hm
      have h2 : ¬ (l.length + 1 + 1 + 1 < 2) := by omega
      have h3 : ¬ (l.length + 1 + 1 + 1 < 3) := by omega
      have h4 : ¬ (l.length + 1 + 1 + 1 = 2) := by omega
      have h5 : ¬ (l.length + 1 + 1 + 1 + 1 < 3) := by omega
      simp [Command.push, setCharacterEffectsCmd, Handler.push, charEffectsPush, bind, Except.bind, pure,
        Except.pure, effectsLen, getOr, hm, h2, h3, h4, h5]
  push_done := by
    intro args b _ hm _
    match args, hm with
    | [], hm => exact absurd (.inl (by simp)) hm
    | [x], hm => exact absurd (.inl (by simp)) hm
    | [x, y], hm => exact absurd (.inl (by simp)) hm
    | x :: y :: z :: l, hm =>
      have hm : ¬ l.length + 1 + 1 + 1 < effectsLen (x :: y :: z :: l) := by
        simp only [List.length_cons] at hm; omega
      simp only [effectsLen, List.getD_cons_zero, List.getD_cons_succ] at hm
      have h2 : ¬ (l.length + 1 + 1 + 1 < 2) := by omega
      have h3 : ¬ (l.length + 1 + 1 + 1 < 3) := by omega
      have h4 : ¬ (l.length + 1 + 1 + 1 = 2) := by omega
      simp [Command.push, setCharacterEffectsCmd, Handler.push, charEffectsPush, bind, Except.bind, pure,
        Except.pure, effectsLen, getOr, hm, h2, h3, h4]
  push_fail := by intro _ _ _ _ h; exact h.elim

/-- the barcode handler state after its parameter bytes `raw` (kind, and length for function B) -/
def barcodeState (k : Byte) (n : Option Byte) : BarcodeState :=
  { kind := barcodeKind k, kindId := k, encoding := barcodeEncoding k, capacity := n.getD 0,
    hasCapacity := n.isSome, acceptData := true, rawParams := k :: n.toList }

def barcodeAfter : List Byte → Command
  | [] => barcodeCmd
  | k :: rest =>
    match barcodeEncoding k with
    | .nulTerminated => { barcodeCmd with data := rest, handler := .barcode (barcodeState k none) }
    | .explicitSize =>
      match rest with
      | [] => { barcodeCmd with handler := .barcode (barcodeState k none) }
      | n :: d => { barcodeCmd with data := d, handler := .barcode (barcodeState k (some n)) }
    | .unknown => { barcodeCmd with handler := .barcode (barcodeState k none) }

def barcodeMore : List Byte → Prop
  | [] => True
  | k :: rest =>
    match barcodeEncoding k with
    | .nulTerminated => rest.getLast? ≠ some 0
    | .explicitSize =>
      match rest with
      | [] => True
      | n :: d => d.length < n.toNat
    | .unknown => False

def barcodeClosed : List Byte → Command
  | [] => barcodeCmd
  | k :: rest =>
    match barcodeEncoding k with
    | .nulTerminated => { barcodeCmd with data := rest.dropLast, handler := .barcode (barcodeState k none) }
    | _ => barcodeAfter (k :: rest)

/-- GS k -/
def Auto.barcode : Auto barcodeCmd where
  after := barcodeAfter
  more := barcodeMore
  fails _ := False
  closed := barcodeClosed
  init := rfl
  push_more := by
    intro args b _ hm
    match args, hm with
    | [], _ =>
      rcases he : barcodeEncoding b <;>
      simp [barcodeAfter, he, Command.push, barcodeCmd, Handler.push, barcodePush, bind, Except.bind, pure,
        Except.pure, barcodeState]
    | k :: rest, hm =>
      rcases he : barcodeEncoding k
      · simp only [barcodeMore, he] at hm
        have hl : ¬ (rest.getLast?.getD 1 = NUL) := by
          rcases hr : rest.getLast? with _ | x
          · decide
          · rw [hr] at hm; simpa [NUL] using hm
        simp [barcodeAfter, he, Command.push, barcodeCmd, Handler.push, barcodePush, bind, Except.bind, pure,
          Except.pure, barcodeState, hl]
      · match rest, hm with
        | [], _ =>
          simp [barcodeAfter, he, Command.push, barcodeCmd, Handler.push, barcodePush, bind, Except.bind, pure,
            Except.pure, barcodeState]
        | n :: d, hm =>
          simp only [barcodeMore, he] at hm
          simp [barcodeAfter, he, Command.push, barcodeCmd, Handler.push, barcodePush, bind, Except.bind, pure,
            Except.pure, barcodeState, hm]
      · simp only [barcodeMore, he] at hm
  push_done := by
    intro args b _ hm _
    match args, hm with
    | [], hm => exact absurd trivial hm
    | k :: rest, hm =>
      rcases he : barcodeEncoding k
      · simp only [barcodeMore, he, ne_eq, Classical.not_not] at hm
        simp [barcodeAfter, barcodeClosed, he, Command.push, barcodeCmd, Handler.push, barcodePush, bind,
          Except.bind, pure, Except.pure, barcodeState, hm, NUL]
      · match rest, hm with
        | [], hm => simp [barcodeMore, he] at hm
        | n :: d, hm =>
          simp only [barcodeMore, he] at hm
          simp [barcodeAfter, barcodeClosed, he, Command.push, barcodeCmd, Handler.push, barcodePush, bind,
            Except.bind, pure, Except.pure, barcodeState, hm]
      · simp [barcodeAfter, barcodeClosed, he, Command.push, barcodeCmd, Handler.push, barcodePush, bind,
          Except.bind, pure, Except.pure, barcodeState]
  push_fail := by intro _ _ _ _ h; exact h.elim

/-- bytes of image data per column for mode `m` of ESC * -/
def bitImageBytes (m : Byte) : Nat := if m = 32 ∨ m = 33 then 3 else 1

/-- ESC * handler state after the three parameters -/
def bitImageState (m lo hi : Byte) (size : Nat) : BitImageState :=
  { width := lo.toNat + hi.toNat * 256
    height := if m = 32 ∨ m = 33 then 24 else 8
    capacity := (lo.toNat + hi.toNat * 256) * bitImageBytes m
    colEncoded := true
    size := size
    acceptData := true
    stretch := if m = 0 ∨ m = 32 then (2, 3) else (1, 1)
    params := [m, lo, hi] }

def bitImageAfter : List Byte → Command
  | m :: lo :: hi :: d => { bitImageCmd with data := d, handler := .bitImage (bitImageState m lo hi d.length) }
  | args => { bitImageCmd with data := args }

def bitImageMore : List Byte → Prop
  | m :: lo :: hi :: d => d.length < (lo.toNat + hi.toNat * 256) * bitImageBytes m
  | _ => True

theorem bitImageParams (m lo hi : Byte) :
    bitImagePush {} [m, lo] hi = (bitImageState m lo hi 0, [], true) := by
  unfold bitImagePush bitImageState bitImageBytes
  by_cases h1 : m = 32 ∨ m = 33 <;> by_cases h2 : m = 0 ∨ m = 32 <;> simp [h1, h2] <;> omega

/-- ESC * -/
def Auto.bitImage : Auto bitImageCmd where
  after := bitImageAfter
  more := bitImageMore
  fails _ := False
  closed := bitImageAfter
  init := rfl
  push_more := by
    intro args b _ hm
    match args, hm with
    | [], _ => rfl
    | [x], _ => rfl
    | [m, lo], _ =>
      have := bitImageParams m lo b
      simp [bitImageAfter, Command.push, bitImageCmd, Handler.push, bind, Except.bind, pure, Except.pure, this]
    | m :: lo :: hi :: d, hm =>
      simp only [bitImageMore] at hm
      have h2 : ¬ (d.length ≥ (lo.toNat + hi.toNat * 256) * bitImageBytes m) := by omega
      simp [bitImageAfter, Command.push, bitImageCmd, Handler.push, bind, Except.bind, pure, Except.pure,
        bitImagePush, bitImageState]
      rw [if_neg (by omega)]; simp
  push_done := by
    intro args b _ hm _
    match args, hm with
    | [], hm => exact absurd trivial hm
    | [x], hm => exact absurd trivial hm
    | [m, lo], hm => exact absurd trivial hm
    | m :: lo :: hi :: d, hm =>
      simp only [bitImageMore] at hm
      simp [bitImageAfter, Command.push, bitImageCmd, Handler.push, bind, Except.bind, pure, Except.pure,
        bitImagePush, bitImageState]
      rw [if_pos (by omega)]; simp
  push_fail := by intro _ _ _ _ h; exact h.elim

/-- GS v 0 handler state after the five parameters -/
def rasterState (m xl xh yl yh : Byte) : RasterState :=
  { width := (xl.toNat + xh.toNat * 256) * 8
    height := yl.toNat + yh.toNat * 256
    capacity := (xl.toNat + xh.toNat * 256) * (yl.toNat + yh.toNat * 256)
    scaling := m
    acceptData := true
    params := [m, xl, xh, yl, yh] }

def rasterAfter : List Byte → Command
  | m :: xl :: xh :: yl :: yh :: d => { rasterBitImageCmd with data := d, handler := .raster (rasterState m xl xh yl yh) }
  | args => { rasterBitImageCmd with data := args }

def rasterMore : List Byte → Prop
  | _ :: xl :: xh :: yl :: yh :: d => d.length < (xl.toNat + xh.toNat * 256) * (yl.toNat + yh.toNat * 256)
  | _ => True

/-- GS v 0 -/
def Auto.raster : Auto rasterBitImageCmd where
  after := rasterAfter
  more := rasterMore
  fails _ := False
  closed := rasterAfter
  init := rfl
  push_more := by
    intro args b _ hm
    match args, hm with
    | [], _ => rfl
    | [_], _ => rfl
    | [_, _], _ => rfl
    | [_, _, _], _ => rfl
    | [_, _, _, _], _ => rfl
    | m :: xl :: xh :: yl :: yh :: d, hm =>
      simp only [rasterMore] at hm
      simp [rasterAfter, Command.push, rasterBitImageCmd, Handler.push, bind, Except.bind, pure, Except.pure,
        rasterPush, rasterState]
      rw [if_neg (by omega)]; simp
  push_done := by
    intro args b _ hm _
    match args, hm with
    | [], hm => exact absurd trivial hm
    | [_], hm => exact absurd trivial hm
    | [_, _], hm => exact absurd trivial hm
    | [_, _, _], hm => exact absurd trivial hm
    | [_, _, _, _], hm => exact absurd trivial hm
    | m :: xl :: xh :: yl :: yh :: d, hm =>
      simp only [rasterMore] at hm
      simp [rasterAfter, Command.push, rasterBitImageCmd, Handler.push, bind, Except.bind, pure, Except.pure,
        rasterPush, rasterState]
      rw [if_pos (by omega)]; simp
  push_fail := by intro _ _ _ _ h; exact h.elim

/-! ### Sub-commands -/

/-- a sub-command handler as created by `new` -/
structure SubInit (base : Command) (s0 : SubState) : Prop where
  handler : base.handler = .sub s0
  dataKind : base.dataKind = .custom
  data : base.data = []
  none_ : s0.subcommand = Option.none
  acc : s0.acceptData = false

def subMore (s0 : SubState) (args : List Byte) : Prop :=
  args.length < s0.metaLen ∨
  (2 ≤ declared (args.take s0.metaLen) ∧ args.length < s0.metaLen + (declared (args.take s0.metaLen) - 2))

def subFails (s0 : SubState) (args : List Byte) : Prop :=
  args.length = s0.metaLen ∧ declared args < 2

def subAfter (base : Command) (s0 : SubState) (args : List Byte) : Command :=
  if args.length ≤ s0.metaLen then { base with data := args }
  else { base with data := args.drop s0.metaLen, handler := .sub (s0.parsed (args.take s0.metaLen)) }

def subClosed (base : Command) (s0 : SubState) (args : List Byte) : Command :=
  let p := s0.parsed (args.take s0.metaLen)
  match p.subcommand with
  | some sub =>
    { base with
      data := sub.data
      handler := .sub { p with subcommand := some { sub with data := args.drop s0.metaLen } } }
  | none => { base with data := args.drop s0.metaLen, handler := .sub p }

theorem sub_cmd_push {base : Command} {s0} (h : SubInit base s0) (d : List Byte) (s : SubState) (b : Byte) :
    ({ base with data := d, handler := .sub s } : Command).push b =
      (s.push d b).map (fun r => ({ base with data := r.2.1, handler := .sub r.1 }, r.2.2)) := by
  simp only [Command.push, h.dataKind, Handler.push, bind, Except.bind, pure, Except.pure]
  rcases s.push d b with e | r <;> rfl

def Auto.sub (base : Command) (s0 : SubState) (h : SubInit base s0) : Auto base where
  after := subAfter base s0
  more := subMore s0
  fails := subFails s0
  closed := subClosed base s0
  init := by
    have hb : base = { base with data := [] } := by rw [← h.data]
    simp [subAfter]; exact hb.symm
  push_more := by
    intro args b hr hm
    have hml := metaLen_or s0
    have hbase : ∀ d, ({ base with data := d } : Command) = { base with data := d, handler := .sub s0 } := by
      intro d; rw [← h.handler]
    by_cases h1 : args.length < s0.metaLen
    · have : subAfter base s0 args = { base with data := args } := by
        unfold subAfter; rw [if_pos (by omega)]
      rw [this, hbase, sub_cmd_push h, sub_push_eq, h.acc]
      simp only [Bool.false_eq_true, if_false, if_pos h1, Except.map]
      unfold subAfter; rw [if_pos (by simp; omega), hbase]
    · have hdec : 2 ≤ declared (args.take s0.metaLen) ∧
          args.length < s0.metaLen + (declared (args.take s0.metaLen) - 2) := by
        rcases hm with hm | hm
        · exact absurd hm h1
        · exact hm
      have htake : (args ++ [b]).take s0.metaLen = args.take s0.metaLen := by
        rw [List.take_append_of_le_length (by omega)]
      have hdrop : (args ++ [b]).drop s0.metaLen = args.drop s0.metaLen ++ [b] := by
        rw [List.drop_append_of_le_length (by omega)]
      have hafter : subAfter base s0 (args ++ [b]) = { base with
          data := args.drop s0.metaLen ++ [b]
          handler := .sub (s0.parsed (args.take s0.metaLen)) } := by
        unfold subAfter; rw [if_neg (by simp; omega), htake, hdrop]
      have hlen : (args.take s0.metaLen).length = 4 ∨ (args.take s0.metaLen).length = 6 := by
        simp only [List.length_take]; omega
      have hpd : (s0.parsed (args.take s0.metaLen)).pushData (args.drop s0.metaLen) b
          = (s0.parsed (args.take s0.metaLen), args.drop s0.metaLen ++ [b], true) := by
        unfold SubState.pushData
        rw [if_pos]
        simp only [List.length_drop, SubState.parsed]; omega
      rw [hafter]
      by_cases h2 : args.length = s0.metaLen
      · have : subAfter base s0 args = { base with data := args } := by
          unfold subAfter; rw [if_pos (by omega)]
        have hd0 : args.drop s0.metaLen = [] := by rw [← h2]; simp
        rw [this, hbase, sub_cmd_push h, sub_push_eq, h.acc]
        simp only [Bool.false_eq_true, if_false, if_neg h1]
        rw [parseMeta_eq _ _ hlen, if_pos hdec.1]
        simp only [Except.map]
        rw [hd0] at hpd
        rw [hpd, hd0]
      · have : subAfter base s0 args = { base with
            data := args.drop s0.metaLen
            handler := .sub (s0.parsed (args.take s0.metaLen)) } := by
          unfold subAfter; rw [if_neg (by omega)]
        rw [this, sub_cmd_push h, sub_push_eq]
        rw [if_pos (show (s0.parsed (args.take s0.metaLen)).acceptData = true from rfl), hpd]; rfl
  push_done := by
    intro args b hr hm hf
    have hml := metaLen_or s0
    have hbase : ∀ d, ({ base with data := d } : Command) = { base with data := d, handler := .sub s0 } := by
      intro d; rw [← h.handler]
    have h1 : ¬ args.length < s0.metaLen := fun h => hm (.inl h)
    have hlen : (args.take s0.metaLen).length = 4 ∨ (args.take s0.metaLen).length = 6 := by
      simp only [List.length_take]; omega
    have hdec : 2 ≤ declared (args.take s0.metaLen) := by
      by_cases h2 : args.length = s0.metaLen
      · have ht : args.take s0.metaLen = args := List.take_of_length_le (by omega)
        rw [ht]
        rcases Nat.lt_or_ge (declared args) 2 with h3 | h3
        · exact absurd ⟨h2, h3⟩ hf
        · exact h3
      · have hpre : (args.take s0.metaLen ++ [args.getD s0.metaLen 0]) <+: args := by
          have : args.take s0.metaLen ++ [args.getD s0.metaLen 0] = args.take (s0.metaLen + 1) := by
            rw [List.take_add_one, List.getD_eq_getElem?_getD]
            have : s0.metaLen < args.length := by omega
            simp [List.getElem?_eq_getElem this]
          rw [this]; exact List.take_prefix _ _
        have := hr _ _ hpre
        rcases this with h3 | h3
        · simp only [List.length_take] at h3; omega
        · rw [List.take_take] at h3; simpa using h3.1
    have h3 : ¬ (args.drop s0.metaLen).length < (s0.parsed (args.take s0.metaLen)).capacity := by
      simp only [List.length_drop, SubState.parsed]
      intro h3
      apply hm; right
      exact ⟨hdec, by omega⟩
    have hgoal : (fun r : SubState × List Byte × Bool =>
        (({ base with data := r.2.1, handler := .sub r.1 } : Command), r.2.2))
        ((s0.parsed (args.take s0.metaLen)).pushData (args.drop s0.metaLen) b) = (subClosed base s0 args, false) := by
      unfold SubState.pushData subClosed
      rw [if_neg h3]
      dsimp only
      generalize s0.parsed (args.take s0.metaLen) = P
      rcases hP : P.subcommand with _ | sub <;> simp [hP]
    by_cases h2 : args.length = s0.metaLen
    · have : subAfter base s0 args = { base with data := args } := by
        unfold subAfter; rw [if_pos (by omega)]
      have hd0 : args.drop s0.metaLen = [] := by rw [← h2]; simp
      rw [this, hbase, sub_cmd_push h, sub_push_eq, h.acc]
      simp only [Bool.false_eq_true, if_false, if_neg h1]
      rw [parseMeta_eq _ _ hlen, if_pos hdec]
      simp only [Except.map]
      rw [hd0] at hgoal
      simp only at hgoal
      rw [hgoal]
    · have : subAfter base s0 args = { base with
          data := args.drop s0.metaLen
          handler := .sub (s0.parsed (args.take s0.metaLen)) } := by
        unfold subAfter; rw [if_neg (by omega)]
      rw [this, sub_cmd_push h, sub_push_eq]
      rw [if_pos (show (s0.parsed (args.take s0.metaLen)).acceptData = true from rfl)]
      simp only [Except.map]
      simp only at hgoal
      rw [hgoal]
  push_fail := by
    intro args b hr hm hf
    have hbase : ∀ d, ({ base with data := d } : Command) = { base with data := d, handler := .sub s0 } := by
      intro d; rw [← h.handler]
    have hml := metaLen_or s0
    have : subAfter base s0 args = { base with data := args } := by
      unfold subAfter; rw [if_pos (by rw [hf.1]; omega)]
    have ht : args.take s0.metaLen = args := List.take_of_length_le (by rw [hf.1]; omega)
    rw [this, hbase, sub_cmd_push h, sub_push_eq, h.acc]
    simp only [Bool.false_eq_true, if_false]
    rw [if_neg (by rw [hf.1]; omega), ht, parseMeta_eq _ _ (by rw [hf.1]; exact hml), if_neg (by have := hf.2; omega)]
    rfl

theorem subInit_graphics : SubInit graphicsCmd { table := .graphics, isLarge := false, useM := false } :=
  ⟨rfl, rfl, rfl, rfl, rfl⟩
theorem subInit_large : SubInit largeGraphicsCmd { table := .graphics, isLarge := true, useM := false } :=
  ⟨rfl, rfl, rfl, rfl, rfl⟩
theorem subInit_code2d : SubInit code2dCmd { table := .code2d, isLarge := false, useM := true } :=
  ⟨rfl, rfl, rfl, rfl, rfl⟩
theorem subInit_request : SubInit requestResponseTransmissionCmd { table := .none, isLarge := false, useM := false } :=
  ⟨rfl, rfl, rfl, rfl, rfl⟩

end Thermal
