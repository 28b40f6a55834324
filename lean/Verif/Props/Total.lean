import Verif.Proofs.CalmStep
import Verif.Proofs.CalmParse
import Verif.Props.ParserAccount
import Verif.Props.Jobs
import Verif.Spec.Trace
/-
C65: which streams are rendered to the end.
-/
namespace Thermal
open Renderer Spec

variable {σ Out : Type} {R : OutputRenderer σ Out} {ext : Ext}

/-- Print jobs one after the other with the same renderer; all outputs. -/
def Renderer.renderAll (R : OutputRenderer σ Out) (ext : Ext) : List (List Byte) → Renderer σ Out → Rs (List Out × Renderer σ Out)
  | [], r => .ok ([], r)
  | b :: bs, r => do
    let (outs, _, r) ← render R ext r b
    let (more, r) ← renderAll R ext bs r
    pure (outs ++ more, r)

theorem render_bound_on {n : Bool} {M : Nat} (hR : TotalOn (Near n M) R) (hx : ExtOk ext) {bytes : List Byte} {cmds : List Command} {B : Nat} {r : Renderer σ Out}
    (h : Bound n B r) (hp : parseEscPos bytes = .ok cmds) (ht : ∀ c ∈ cmds, Tame n c)
    (hB : B + (cmds.map (reach n)).sum + 32768 < 2147483648) (hM : B + (cmds.map (reach n)).sum ≤ M) :
    ∃ outs errs r', render R ext r bytes = .ok (outs, errs, r') ∧ Bound n (B + (cmds.map (reach n)).sum) r' := by
  obtain ⟨r', e1, b, e2, e3, e4⟩ := steps_calm hR hx h ht (parse_shape hp) hB hM
  refine ⟨r'.outputBuffer, r'.errorBuffer, { r' with outputBuffer := [], errorBuffer := [] }, ?_, b, e2, e3, e4⟩
  simp only [render, hp, e1, bind, Except.bind]; rfl

theorem render_bound (hR : Total R) (hx : ExtOk ext) {n : Bool} {bytes : List Byte} {cmds : List Command} {B : Nat} {r : Renderer σ Out}
    (h : Bound n B r) (hp : parseEscPos bytes = .ok cmds) (ht : ∀ c ∈ cmds, Tame n c)
    (hB : B + (cmds.map (reach n)).sum + 32768 < 2147483648) :
    ∃ outs errs r', render R ext r bytes = .ok (outs, errs, r') ∧ Bound n (B + (cmds.map (reach n)).sum) r' :=
  render_bound_on (hR.on _) hx h hp ht hB (Nat.le_refl _)

theorem renderAll_bound (hR : Total R) (hx : ExtOk ext) {n : Bool} {jobs : List (List Byte × List Command)} {B : Nat} {r : Renderer σ Out}
    (h : Bound n B r) (hp : ∀ j ∈ jobs, parseEscPos j.1 = .ok j.2) (ht : ∀ j ∈ jobs, ∀ c ∈ j.2, Tame n c)
    (hB : B + (jobs.map fun j => (j.2.map (reach n)).sum).sum + 32768 < 2147483648) :
    ∃ outs r', renderAll R ext (jobs.map (·.1)) r = .ok (outs, r') := by
  induction jobs generalizing B r with
  | nil => exact ⟨_, _, rfl⟩
  | cons j jobs ih =>
    simp only [List.map_cons, List.sum_cons] at hB
    obtain ⟨o1, e1, r1, h1, h2⟩ := render_bound hR hx h (hp j (by simp)) (ht j (by simp)) (by omega)
    obtain ⟨o2, r2, h3⟩ := ih h2 (fun x hx => hp x (by simp [hx])) (fun x hx => ht x (by simp [hx])) (by omega)
    refine ⟨o1 ++ o2, r2, ?_⟩
    simp only [List.map_cons, renderAll, h1, h3, bind, Except.bind]; rfl

/-- C65. Print jobs whose parameters are within what the program handles (`Tame`), and that together do not feed more than about
2^31 dots of paper, are rendered to the end, whatever they contain otherwise: with any output renderer that does not panic, and
with any encoders, also if these reject everything. -/
theorem C65_returns_partial (hR : Total R) (hx : ExtOk ext) {n : Bool} {jobs : List (List Byte × List Command)} (s : σ)
    (hp : ∀ j ∈ jobs, parseEscPos j.1 = .ok j.2) (ht : ∀ j ∈ jobs, ∀ c ∈ j.2, Tame n c)
    (hB : (jobs.map fun j => (j.2.map (reach n)).sum).sum + 360448 < 2147483648) :
    ∃ outs r, renderAll R ext (jobs.map (·.1)) (Renderer.new s) = .ok (outs, r) := by
  refine renderAll_bound hR hx (Bound.done (Calm.start n) rfl) hp ht ?_
  generalize (jobs.map fun j => (j.2.map (reach n)).sum).sum = t at hB
  omega

/-- C65, one print job. -/
theorem C65_one_partial (hR : Total R) (hx : ExtOk ext) {n : Bool} {bytes : List Byte} {cmds : List Command} (s : σ)
    (hp : parseEscPos bytes = .ok cmds) (ht : ∀ c ∈ cmds, Tame n c) (hB : (cmds.map (reach n)).sum + 360448 < 2147483648) :
    ∃ outs errs r, render R ext (Renderer.new s) bytes = .ok (outs, errs, r) := by
  obtain ⟨outs, errs, r, h, _⟩ := render_bound hR hx (r := Renderer.new s) (Bound.done (Calm.start n) rfl) hp ht (by omega)
  exact ⟨outs, errs, r, h⟩

/-! ### Output renderers and encoders -/

theorem total_silent : Total silent := by
  constructor <;> intros <;> exact ⟨_, rfl⟩

theorem total_recorder : Total recorder := by
  constructor <;> intros <;> exact ⟨_, rfl⟩

theorem extOk_noExt : ExtOk noExt := by
  constructor
  · intro k s ms h; simp [noExt] at h
  · intro d v e ms w h; simp [noExt] at h

/-! ### Text -/

/-- Commands that only print or style text, and what the program does not know (also what it makes of the text at the very start of a
stream: an unknown command of no bytes). -/
def Command.textual (c : Command) : Prop := c.kind = .text ∨ c.kind = .textStyle ∨ c.kind = .unknown

instance (c : Command) : Decidable c.textual := by unfold Command.textual; infer_instance

theorem base_textual : ∀ b ∈ baseCommands ++ [beginPrintCmd, endPrintCmd], b.textual →
    (match b.handler with
      | .charEffects _ => true
      | .unit id => id ∉ [Hid.setPageMode, .printAndReverseFeedLines, .setMotionUnits, .setJustification, .printAndFeed, .printAndFeedLines,
          .feedAndCut, .beginPrint, .formfeed, .pageModePrintData, .offsetVerticalPos] ∧
          (id ∈ [Hid.carriageReturn, .horizontalTab, .linefeed] → b.commands ≠ [] ∧ b.kind ≠ .unknown)
      | _ => false) = true := by decide +kernel

theorem sub_textual {c : Command} (hc : Known c) (hk : c.textual) :
    ∃ base ∈ baseCommands ++ [beginPrintCmd, endPrintCmd], Derived base c := by
  rcases hc with ⟨base, hb, _, hd⟩ | ⟨op, hdr, x, h1, h2, h3, h4, h5⟩
  · exact ⟨base, hb, hd⟩
  · exfalso
    have n1 : ∀ n < 256, ∀ x ∈ (Spec.graphicsFunction (UInt8.ofNat n)).toList, ¬ (x.kind = .text ∨ x.kind = .textStyle ∨ x.kind = .unknown) := by decide +kernel
    have n2 : ∀ d < 7, ∀ n < 256, ∀ x ∈ (Spec.code2dImplemented (UInt8.ofNat (48 + d)) (UInt8.ofNat n)).toList,
        ¬ (x.kind = .text ∨ x.kind = .textStyle ∨ x.kind = .unknown) := by decide +kernel
    unfold Command.textual at hk
    rw [h2] at hk
    rcases h5 with ⟨_, hx⟩ | ⟨_, _, hx⟩
    · exact n1 (metaFn hdr).toNat (UInt8.toNat_lt _) x (by rw [UInt8.ofNat_toNat, hx]; simp) hk
    · obtain ⟨a, b⟩ := code2dImplemented_range hx
      exact n2 ((metaM hdr).toNat - 48) (by omega) (metaFn hdr).toNat (UInt8.toNat_lt _) x
        (by rw [show 48 + ((metaM hdr).toNat - 48) = (metaM hdr).toNat by omega, UInt8.ofNat_toNat, UInt8.ofNat_toNat, hx]; simp) hk

theorem textual_tame {c : Command} (hc : Known c) (hk : c.textual) : Tame false c ∧ reach false c ≤ 255 * (shown c).length := by
  obtain ⟨base, hb, hd⟩ := sub_textual hc hk
  have hkb : base.textual := by unfold Command.textual at hk ⊢; rw [← hd.kind]; exact hk
  have h1 := base_textual base hb hkb
  have hs : c.kind ≠ .unknown → (shown c).length = c.commands.length + c.data.length := by
    intro hn
    unfold shown
    rw [if_neg hn, List.length_append]
  have hs' : c.data.length ≤ (shown c).length := by
    unfold shown
    split
    · omega
    · rw [List.length_append]; omega
  rcases hh : base.handler with id | _ | cap | _ | _ | _ | _ <;> rw [hh] at h1 <;> simp only [Bool.false_eq_true, decide_eq_true_eq] at h1
  · have hu := derived_unit hd hh
    obtain ⟨h2, h3⟩ := h1
    rw [← hd.commands, ← hd.kind] at h3
    have pos : id ∈ [Hid.carriageReturn, .horizontalTab, .linefeed] → 0 < c.commands.length ∧ c.kind ≠ .unknown :=
      fun h => ⟨List.length_pos_iff.2 (h3 h).1, (h3 h).2⟩
    unfold Tame reach
    rw [hu]
    cases id <;> first | (exfalso; exact h2 (by decide)) | skip
    all_goals dsimp only
    all_goals first
      | exact ⟨trivial, by omega⟩
      | exact ⟨trivial, by obtain ⟨p1, p2⟩ := pos (by decide); have := hs p2; omega⟩
      | exact ⟨fun h => absurd h (by decide), by omega⟩
  · have hcl := hd.handler
    rw [hh] at hcl
    rcases hcc : c.handler <;> rw [hcc] at hcl <;> simp [Handler.sameClass] at hcl
    unfold Tame reach
    rw [hcc]
    dsimp only
    exact ⟨trivial, by omega⟩

theorem textual_reach {bytes : List Byte} {cmds : List Command} (hp : parseEscPos bytes = .ok cmds)
    (ht : ∀ c ∈ cmds, ¬ c.isBegin → ¬ c.isEnd → c.textual) :
    (cmds.map (reach false)).sum ≤ 510 + 255 * bytes.length ∧ ∀ c ∈ cmds, Tame false c := by
  have hk := parse_known hp
  have hl := (C07_subsequence hp).length_le
  obtain ⟨mid, rfl, hm⟩ := parseEscPos_framed hp
  have hmid : ∀ c ∈ mid, c.textual := by
    intro c hc
    obtain ⟨h1, h2⟩ := hm c hc
    exact ht c (by simp [hc]) h1 h2
  have h1 : (mid.map (reach false)).sum ≤ 255 * (mid.flatMap shown).length := by
    clear ht hl hp hm
    induction mid with
    | nil => simp
    | cons c mid ih =>
      have h2 := (textual_tame (hk c (by simp)) (hmid c (by simp))).2
      have h3 := ih (fun x hx => hk x (by simp at hx ⊢; rcases hx with h | h | h <;> simp [h])) (fun x hx => hmid x (by simp [hx]))
      simp only [List.map_cons, List.sum_cons, List.flatMap_cons, List.length_append]
      omega
  have h2 : (((beginPrintCmd :: mid ++ [endPrintCmd])).map (reach false)).sum = 510 + (mid.map (reach false)).sum := by
    simp only [List.cons_append, List.map_cons, List.map_append, List.sum_cons, List.sum_append, List.map_nil, List.sum_nil]
    have : reach false beginPrintCmd = 510 := rfl
    have : reach false endPrintCmd = 0 := rfl
    omega
  have h3 : (mid.flatMap shown).length ≤ bytes.length := by
    simp only [List.cons_append, List.flatMap_cons, List.flatMap_append, List.length_append] at hl
    omega
  refine ⟨by rw [h2]; omega, ?_⟩
  intro c hc
  simp only [List.cons_append, List.mem_cons, List.mem_append, List.not_mem_nil, or_false] at hc
  rcases hc with rfl | hc | rfl
  · exact trivial
  · exact (textual_tame (hk c (by simp [hc])) (hmid c hc)).1
  · exact trivial

/-- C65, text: every print job of only text, tabs, line ends, text styles and unknown commands, however malformed, is rendered to the end if it is
shorter than 8 million bytes. -/
theorem C65_text (hR : Total R) (hx : ExtOk ext) {bytes : List Byte} {cmds : List Command} (s : σ)
    (hp : parseEscPos bytes = .ok cmds) (ht : ∀ c ∈ cmds, ¬ c.isBegin → ¬ c.isEnd → c.textual) (hB : bytes.length ≤ 8000000) :
    ∃ outs errs r, render R ext (Renderer.new s) bytes = .ok (outs, errs, r) := by
  obtain ⟨h1, h2⟩ := textual_reach hp ht
  exact C65_one_partial hR hx (n := false) s hp h2 (by omega)

instance (n : Bool) (c : Command) : Decidable (Tame n c) := by
  unfold Tame Tame.Buffered
  split <;> infer_instance

/-- C65, a concrete print job that meets the hypotheses: a centred title in large letters, a barcode with text below, a bit image,
a QR code, an unknown command, a truncated one at the end. -/
example : ∃ cmds, parseEscPos ([27, 97, 1, 29, 33, 0x77, 72, 105, 10, 29, 72, 2, 29, 107, 67, 12] ++ [53, 57, 48, 49, 50, 51, 52, 49, 50, 51, 52, 53] ++
      [27, 42, 33, 1, 0, 255, 129, 255, 27, 1, 29, 40, 107, 5, 0, 49, 80, 48, 65, 66, 29, 40, 107, 3, 0, 49, 81, 48, 12, 27, 36, 7]) = .ok cmds ∧
    (∀ c ∈ cmds, Tame false c) ∧ (cmds.map (reach false)).sum + 360448 < 2147483648 ∧ 12 < cmds.length := by
  refine ⟨_, rfl, ?_⟩; decide +kernel

/-- C65, right-justified text and page mode each meet the hypotheses. -/
example : (∃ cmds, parseEscPos [27, 97, 2, 72, 105, 10, 27, 33, 0x20, 72, 105] = .ok cmds ∧ ∀ c ∈ cmds, Tame true c) ∧
    ∃ cmds, parseEscPos [27, 76, 27, 87, 0, 0, 0, 0, 8, 0, 8, 0, 72, 105, 10, 12] = .ok cmds ∧ ∀ c ∈ cmds, Tame false c := by
  refine ⟨⟨_, rfl, ?_⟩, _, rfl, ?_⟩ <;> decide +kernel

/-- C65_text, a concrete print job with missing and absurd parameters. -/
example : ∃ cmds, parseEscPos [72, 105, 27, 1, 29, 33, 255, 72, 105, 9, 13, 10, 27, 116, 200, 128, 27, 82, 99, 35, 29, 40, 78, 255, 255, 1, 27, 77] = .ok cmds ∧
    ∀ c ∈ cmds, ¬ c.isBegin → ¬ c.isEnd → c.textual := by
  refine ⟨_, rfl, ?_⟩; decide +kernel

/-! ### The hypotheses are needed -/

/-- The program panics on this print job, whatever the output renderer draws: the simplest one already does. -/
def Panics (bytes : List Byte) : Bool :=
  match render silent noExt (Renderer.new ()) bytes with
  | .error _ => true
  | .ok _ => false

/-- C65 does not hold of the code: each of these streams is accepted by the parser and panics.  One stream for each restriction
in `Tame`. -/
theorem C65_panics :
    -- ESC e 1
    Panics [27, 101, 1] ∧
    -- GS P 250 250, ESC $ 1 0: division by zero
    Panics [29, 80, 250, 250, 27, 36, 1, 0] ∧
    -- right-justified text in page mode
    Panics [27, 76, 27, 97, 2, 65, 65, 10] ∧
    -- a right-justified line of letters eight times as wide
    Panics ([27, 97, 2, 29, 33, 0x70] ++ List.replicate 97 65 ++ [10]) ∧
    -- EAN 13 with a letter of two bytes at its end
    Panics [29, 107, 67, 13, 48, 48, 48, 48, 48, 48, 48, 48, 48, 48, 48, 0xC3, 0xA9, 10] ∧
    -- ESC *, cut off
    Panics [27, 42, 33, 2, 0, 1, 1] ∧
    -- GS v 0 with a size of 65535 bytes by 65535 lines
    Panics [29, 118, 48, 0, 255, 255, 255, 255] ∧
    -- GS ( L: define column graphics, with one byte of parameters
    Panics [29, 40, 76, 3, 0, 48, 68, 48, 10] ∧
    -- GS ( L: store raster graphics, with four bytes of parameters
    Panics [29, 40, 76, 6, 0, 48, 112, 48, 1, 1, 49, 10] ∧
    -- GS ( L: store column graphics, without the dots
    Panics [29, 40, 76, 10, 0, 48, 113, 48, 1, 1, 49, 1, 0, 8, 0, 10] ∧
    -- GS ( k: PDF417 correction level, with one byte of parameters, and with a mode below '0'
    Panics [29, 40, 107, 3, 0, 48, 69, 48, 10] ∧ Panics [29, 40, 107, 4, 0, 48, 69, 47, 48, 10] ∧
    -- GS ( k: MaxiCode mode below '0'
    Panics [29, 40, 107, 3, 0, 50, 65, 47, 10] ∧
    -- GS ( k: Data Matrix size
    Panics [29, 40, 107, 5, 0, 54, 66, 48, 255, 255, 10] := by
  refine ⟨?_, ?_, ?_, ?_, ?_, ?_, ?_, ?_, ?_, ?_, ?_, ?_, ?_, ?_⟩ <;> decide +kernel

/-- C65, none of them is tame in either sense (the wide line is with `false`, and the page with `true`, for its other command). -/
example : ∀ bs ∈ [[27, 101, 1], [29, 80, 250, 250, 27, 36, 1, 0], [27, 76, 27, 97, 2, 65, 65, 10], [27, 97, 2, 29, 33, 0x70, 65, 10],
      [29, 107, 67, 13, 48, 48, 48, 48, 48, 48, 48, 48, 48, 48, 48, 0xC3, 0xA9, 10], [27, 42, 33, 2, 0, 1, 1],
      [29, 118, 48, 0, 255, 255, 255, 255], [29, 40, 76, 3, 0, 48, 68, 48, 10]], ∀ n : Bool,
    (match parseEscPos bs with
      | .ok cmds => !decide (∀ c ∈ cmds, Tame n c)
      | .error _ => false) = true := by
  decide +kernel

end Thermal
