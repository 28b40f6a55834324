import Verif.Spec.Told
import Verif.Props.Jobs
import Verif.Props.Layout
/-
C93: what the output renderer is told about the device.
-/
namespace Thermal
open Renderer
open Spec (tells carried told toldJob)

variable {ext : Ext} {σ Out : Type}

/-! ### Drawing tells nothing -/

/-- The calls between two recordings only draw. -/
def Draws (a b : List (Context × Call)) : Prop := ∃ xs, b = a ++ xs ∧ ∀ x ∈ xs, tells x.2 = none

theorem Draws.refl (r : List (Context × Call)) : Draws r r := ⟨[], by simp, by simp⟩

theorem Draws.trans {a b c : List (Context × Call)} (h1 : Draws a b) (h2 : Draws b c) : Draws a c := by
  obtain ⟨xs, e1, h1⟩ := h1
  obtain ⟨ys, e2, h2⟩ := h2
  refine ⟨xs ++ ys, by rw [e2, e1, List.append_assoc], fun x hx => ?_⟩
  rcases List.mem_append.1 hx with h | h
  · exact h1 x h
  · exact h2 x h

theorem renderLines_draws {ls} {r r' : Recording} (h : renderLines recorder ls r = .ok r') : Draws r.child r'.child := by
  induction ls generalizing r with
  | nil => simp only [renderLines, ok_ok] at h; subst h; exact .refl _
  | cons l ls ih =>
    simp only [renderLines, bind_ok] at h
    obtain ⟨r1, h1, h2⟩ := h
    refine Draws.trans ?_ (ih h2)
    unfold renderLine at h1
    split at h1
    · rw [ok_ok] at h1; subst h1; exact .refl _
    · simp only [bind_ok, pure_ok, recorder, ok_ok] at h1
      obtain ⟨_, _, _, _, s, rfl, rfl⟩ := h1
      exact ⟨[_], rfl, by simp [tells]⟩

theorem processText_draws {r r' : Recording} (h : processText recorder r = .ok r') : Draws r.child r'.child := by
  unfold processText at h
  split at h
  · rw [ok_ok] at h; subst h; exact .refl _
  · simp only [bind_ok] at h
    obtain ⟨⟨c, ls⟩, _, h⟩ := h
    have := renderLines_draws h
    exact this

theorem barcodeText_draws {r r' : Recording} {b} (h : barcodeText recorder r b = .ok r') : Draws r.child r'.child := by
  simp only [barcodeText, bind_ok, pure_ok] at h
  obtain ⟨r1, h1, c, _, rfl⟩ := h
  have := processText_draws h1
  exact this

theorem processGraphicsOpt_draws {r r' : Recording} {g} (h : processGraphicsOpt recorder r g = .ok r') : Draws r.child r'.child := by
  unfold processGraphicsOpt at h
  split at h
  · unfold processGraphics at h
    split at h
    · rw [pure_ok] at h; subst h; exact .refl _
    · simp only [processCode2d, bind_ok, pure_ok, recorder, ok_ok] at h
      obtain ⟨_, _, _, _, ⟨c2, gs⟩, _, _, rfl, rfl⟩ := h
      exact ⟨[_], rfl, by simp [tells]⟩
    · simp only [processBarcode, bind_ok] at h
      obtain ⟨r1, h1, r2, h2, h3⟩ := h
      have a : Draws r.child r1.child := by
        unfold barcodeAbove at h1
        split at h1
        · exact barcodeText_draws h1
        · rw [ok_ok] at h1; subst h1; exact .refl _
      have b : Draws r1.child r2.child := by
        simp only [barcodeBars, bind_ok, pure_ok, recorder, ok_ok] at h2
        obtain ⟨_, _, _, _, ⟨c2, gs⟩, _, _, rfl, c3, _, rfl⟩ := h2
        exact ⟨[_], rfl, by simp [tells]⟩
      refine (a.trans b).trans ?_
      unfold barcodeBelow at h3
      split at h3
      · simp only [bind_ok] at h3
        obtain ⟨c, _, h3⟩ := h3
        have := barcodeText_draws h3
        exact this
      · rw [ok_ok] at h3; subst h3; exact .refl _
    · simp only [processImage, bind_ok, pure_ok, recorder, ok_ok] at h
      obtain ⟨c1, _, _, rfl, c2, _, rfl⟩ := h
      exact ⟨[_], rfl, by simp [tells]⟩
    · rw [pure_ok] at h; subst h; exact .refl _
  · rw [ok_ok] at h; subst h; exact .refl _

/-! ### Device commands are told and carried out -/

theorem deviceCommand_told {d : DeviceCommand} {r r' : Recording} (h : deviceCommand recorder r d = .ok r') :
    ∃ xs, r'.child = r.child ++ xs ∧ xs.map (fun x => tells x.2) = (carried d).map some := by
  simp only [deviceCommand, bind_ok, recorder, ok_ok] at h
  obtain ⟨s, rfl, h⟩ := h
  cases d <;> simp only [bind_ok, pure_ok, ok_ok] at h
  case beginPrint => obtain ⟨c, h1, s, rfl, rfl⟩ := h; exact ⟨[_, _], by simp only [List.append_assoc, List.cons_append, List.nil_append]; rfl, rfl⟩
  case endPrint => obtain ⟨_, rfl, rfl⟩ := h; exact ⟨[_, _], by simp only [List.append_assoc, List.cons_append, List.nil_append]; rfl, rfl⟩
  case feedLine => obtain ⟨c, h1, rfl⟩ := h; exact ⟨[_], rfl, rfl⟩
  case feed => obtain ⟨c, h1, rfl⟩ := h; exact ⟨[_], rfl, rfl⟩
  case fullCut => obtain ⟨c, h1, rfl⟩ := h; exact ⟨[_], rfl, rfl⟩
  case partialCut => obtain ⟨c, h1, rfl⟩ := h; exact ⟨[_], rfl, rfl⟩
  case beginPageMode => obtain ⟨c, rfl, rfl⟩ := h; exact ⟨[_, _], by simp only [List.append_assoc, List.cons_append, List.nil_append]; rfl, rfl⟩
  case endPageMode => obtain ⟨c, rfl, rfl⟩ := h; exact ⟨[_, _], by simp only [List.append_assoc, List.cons_append, List.nil_append]; rfl, rfl⟩
  case printPageMode => obtain ⟨s, rfl, y, h1, rfl⟩ := h; exact ⟨[_, _], by simp only [List.append_assoc, List.cons_append, List.nil_append]; rfl, rfl⟩
  case changePageArea =>
    simp only [pageAreaChanged, bind_ok, pure_ok, ok_ok] at h
    obtain ⟨_, _, s, rfl, rfl⟩ := h
    exact ⟨[_, _], by simp only [List.append_assoc, List.cons_append, List.nil_append]; rfl, rfl⟩
  case changePageModeDirection =>
    simp only [pageAreaChanged, bind_ok, pure_ok, ok_ok] at h
    obtain ⟨_, _, s, rfl, rfl⟩ := h
    exact ⟨[_, _], by simp only [List.append_assoc, List.cons_append, List.nil_append]; rfl, rfl⟩
  all_goals (subst h; exact ⟨[_], rfl, rfl⟩)

theorem deviceCommands_told {ds : List DeviceCommand} {r r' : Recording} (h : deviceCommands recorder ds r = .ok r') :
    ∃ xs, r'.child = r.child ++ xs ∧ xs.map (fun x => tells x.2) = (ds.flatMap carried).map some := by
  induction ds generalizing r with
  | nil => simp only [deviceCommands, ok_ok] at h; subst h; exact ⟨[], by simp, rfl⟩
  | cons d ds ih =>
    simp only [deviceCommands, bind_ok] at h
    obtain ⟨r1, h1, h2⟩ := h
    obtain ⟨xs, a1, a2⟩ := deviceCommand_told h1
    obtain ⟨ys, b1, b2⟩ := ih h2
    exact ⟨xs ++ ys, by rw [b1, a1, List.append_assoc], by rw [List.map_append, a2, b2, List.flatMap_cons, List.map_append]⟩

/-! ### Which commands are told -/

/-- The kinds of commands whose device commands are not asked for. -/
def unasked : CommandType → Bool
  | .context | .text | .unknown | .subcommand => true
  | _ => false

theorem graphics_function_50 (fn : Byte) (x : SubCmd) (h : Spec.graphicsFunction fn = some x) :
    (x.id = .printBuffer ↔ fn ∈ ([2, 50] : List Byte)) ∧ (x.id = .printBuffer → x.kind = .graphics) := by
  have k : ∀ n < 256, (Spec.graphicsFunction (UInt8.ofNat n)).all (fun x =>
      decide ((x.id = .printBuffer ↔ UInt8.ofNat n ∈ ([2, 50] : List Byte)) ∧ (x.id = .printBuffer → x.kind = .graphics))) = true := by decide +kernel
  have := byte_all (P := fun b => (Spec.graphicsFunction b).all (fun x =>
      decide ((x.id = .printBuffer ↔ b ∈ ([2, 50] : List Byte)) ∧ (x.id = .printBuffer → x.kind = .graphics))) = true) k fn
  rw [h] at this
  exact of_decide_eq_true this

theorem code2d_other {m fn : Byte} {x : SubCmd} (h : Spec.code2dImplemented m fn = some x) : x.id ≠ .printBuffer := by
  unfold Spec.code2dImplemented Spec.code2dFunction at h
  split at h
  · cases h; decide
  · split at h
    · cases h
    · split at h <;> first | (cases h; decide) | cases h

theorem list4 {l : List Byte} (h : l.length = 4) : ∃ a b c d, l = [a, b, c, d] := by
  rcases l with _ | ⟨a, _ | ⟨b, _ | ⟨c, _ | ⟨d, _ | _⟩⟩⟩⟩ <;> simp at h
  exact ⟨a, b, c, d, rfl⟩

theorem list6 {l : List Byte} (h : l.length = 6) : ∃ a b c d e f, l = [a, b, c, d, e, f] := by
  rcases l with _ | ⟨a, _ | ⟨b, _ | ⟨c, _ | ⟨d, _ | ⟨e, _ | ⟨f, _ | _⟩⟩⟩⟩⟩⟩ <;> simp at h
  exact ⟨a, b, c, d, e, f, rfl⟩

theorem getOr_getD (data : List Byte) (i : Nat) (d : Byte) : getOr data i d = data.getD i d := by
  unfold getOr; rw [List.getD_eq_getElem?_getD]

theorem size_told (n : Byte) : (parseStretch n).1 = n / 16 % 8 + 1 ∧ (parseStretch n).2 = n % 8 + 1 :=
  byte_all (P := fun n => (parseStretch n).1 = n / 16 % 8 + 1 ∧ (parseStretch n).2 = n % 8 + 1) (by decide +kernel) n

theorem side_told (n : Byte) : parseJustify n = Spec.sides n := byte_all (P := fun n => parseJustify n = Spec.sides n) (by decide +kernel) n

theorem cut_told (m n : Byte) {o : Option (List DeviceCommand)}
    (h : (if m = 0 ∨ m = 48 then pure (some [.fullCut])
      else if m = 1 ∨ m = 49 then pure (some [.partialCut])
      else if m = 65 ∨ m = 97 ∨ m = 103 then pure (some [.fullCut, .feed n.toNat])
      else if m = 66 ∨ m = 98 ∨ m = 104 then pure (some [.partialCut, .feed n.toNat])
      else pure none : Rs (Option (List DeviceCommand))) = .ok o) : o.getD [] = Spec.cuts m n := by
  unfold Spec.cuts
  simp only [List.mem_cons, List.not_mem_nil, or_false]
  split at h
  · rename_i h1; rw [pure_ok] at h; subst h; rw [if_pos h1]; rfl
  · rename_i h1
    rw [if_neg h1]
    split at h
    · rename_i h1; rw [pure_ok] at h; subst h; rw [if_pos h1]; rfl
    · rename_i h1
      rw [if_neg h1]
      split at h
      · rename_i h1; rw [pure_ok] at h; subst h; rw [if_pos h1]; rfl
      · rename_i h1
        rw [if_neg h1]
        split at h
        · rename_i h1; rw [pure_ok] at h; subst h; rw [if_pos h1]; rfl
        · rename_i h1; rw [pure_ok] at h; subst h; rw [if_neg h1]; rfl

/-- A command with an entry of its own. -/
theorem getDeviceUnit_told {base : Command} (h1 : base ∈ baseCommands) {id : Hid} (hid : base.handler = .unit id) {c : Context} {o} {page : Bool}
    {data : List Byte} (hd : c.default = some defaultSettings) (hp : base.kind = .control → c.pageMode.enabled = page) (hm : unasked base.kind = false)
    (h : getDeviceUnit id data c = .ok o) : o.getD [] = Spec.deviceCommands page base.commands data := by
  simp only [baseCommands, escPosCommands, List.cons_append, List.nil_append, List.mem_cons, List.not_mem_nil, or_false] at h1
  rcases h1 with rfl | rfl | rfl | rfl | rfl | rfl | rfl | rfl | rfl | rfl | rfl | rfl | rfl | rfl | rfl | rfl | rfl | rfl | rfl | rfl | rfl | rfl | rfl | rfl | rfl | rfl | rfl | rfl | rfl | rfl | rfl | rfl | rfl | rfl | rfl | rfl | rfl | rfl | rfl | rfl | rfl | rfl | rfl | rfl | rfl | rfl | rfl | rfl | rfl | rfl | rfl | rfl | rfl | rfl | rfl | rfl | rfl
  all_goals first
    | (cases hm; done)
    | (cases hid; done)
    | (cases hid; simp only [getDeviceUnit, pure_ok] at h; subst h; rfl)
    | (cases hid; exact cut_told _ _ h)
    | (cases hid
       have e := hp rfl
       simp only [getDeviceUnit] at h
       rw [e] at h
       cases page <;> simp only [Bool.false_eq_true, if_true, if_false, pure_ok] at h <;> subst h <;> rfl)
    | (cases hid
       simp only [getDeviceUnit, pure_ok] at h
       subst h
       show [DeviceCommand.feedLine (0 - _)] = _
       rw [Int.zero_sub]
       rfl)
    | (cases hid
       simp only [getDeviceUnit, pure_ok] at h
       subst h
       show [DeviceCommand.setTextWidth (parseStretch _).1, .setTextHeight (parseStretch _).2] = _
       rw [(size_told _).1, (size_told _).2]
       rfl)
    | (cases hid
       simp only [getDeviceUnit, pure_ok] at h
       subst h
       show [DeviceCommand.justify (parseJustify _)] = _
       rw [side_told]
       rfl)
    | (cases hid
       simp only [getDeviceUnit, Context.defaultUnwrap, hd, bind_ok, ok_ok, pure_ok] at h
       obtain ⟨d, rfl, rfl⟩ := h
       rfl)

theorem other_told : ∀ b ∈ baseCommands, (∀ id, b.handler ≠ .unit id) → b.commands ∈ ([[29, 107], [27, 42], [29, 40, 107], [29, 40, 76], [29, 56, 76],
    [29, 118, 48], [29, 40, 72], [29, 40, 78]] : List (List Byte)) := by
  have k : ∀ b ∈ baseCommands, (match b.handler with | .unit _ => true | _ => decide (b.commands ∈ ([[29, 107], [27, 42], [29, 40, 107], [29, 40, 76], [29, 56, 76],
    [29, 118, 48], [29, 40, 72], [29, 40, 78]] : List (List Byte)))) = true := by decide +kernel
  intro b hb hn
  have := k b hb
  split at this
  · rename_i id h; exact absurd h (hn id)
  · exact of_decide_eq_true this

theorem known_base {cmd : Command} {base : Command} (hb : ¬ cmd.isBegin) (he : ¬ cmd.isEnd) (h1 : base ∈ baseCommands ++ [beginPrintCmd, endPrintCmd])
    (h3 : Derived base cmd) : base ∈ baseCommands := by
  rcases List.mem_append.1 h1 with h | h
  · exact h
  · simp only [List.mem_cons, List.not_mem_nil, or_false] at h
    rcases h with rfl | rfl
    · exact absurd (derived_unit h3 rfl) hb
    · exact absurd (derived_unit h3 rfl) he

theorem getDevice_told {cmd : Command} (hc : Known cmd) (hb : ¬ cmd.isBegin) (he : ¬ cmd.isEnd) {c : Context} {o} {page : Bool}
    (hd : c.default = some defaultSettings) (hm : unasked cmd.kind = false) (hp : cmd.kind = .control → c.pageMode.enabled = page)
    (h : getDevice cmd c = .ok o) : o.getD [] = Spec.deviceCommands page cmd.commands cmd.data := by
  rcases hc with ⟨base, h1, h2, h3⟩ | ⟨op, hdr, x, e1, e2, _, e4, e5⟩
  · have hbase := known_base hb he h1 h3
    by_cases hu : ∃ id, base.handler = .unit id
    · obtain ⟨id, hu⟩ := hu
      have hh := derived_unit h3 hu
      simp only [getDevice, hh] at h
      rw [h3.kind] at hp hm
      rw [h3.commands]
      exact getDeviceUnit_told hbase hu hd hp hm h
    · have ho := other_told base hbase (fun id hid => hu ⟨id, hid⟩)
      have hg : o = none := by
        have hs := h3.handler
        unfold getDevice at h
        split at h
        · rename_i id hh
          rw [hh] at hs
          exact absurd ⟨id, by rcases hx : base.handler <;> rw [hx] at hs <;> simp [Handler.sameClass] at hs; rw [hs]⟩ hu
        · rename_i hh
          rw [hh] at hs
          have k : ∀ b ∈ baseCommands, (match b.handler with | .subUnit _ => false | _ => true) = true := by decide +kernel
          have := k base hbase
          rcases hx : base.handler <;> rw [hx] at hs this <;> simp [Handler.sameClass] at hs this
        · rw [pure_ok] at h; exact h.symm
      subst hg
      rw [h3.commands]
      generalize base.commands = op at ho
      simp only [List.mem_cons, List.not_mem_nil, or_false] at ho
      rcases ho with rfl | rfl | rfl | rfl | rfl | rfl | rfl | rfl <;> rfl
  · rw [e1]
    have hg : o.getD [] = if x.id = .printBuffer then [.clearBufferGraphics] else [] := by
      simp only [getDevice, e4] at h
      split at h
      · rename_i hh; cases hh
      · rename_i hh
        rw [pure_ok] at h; subst h
        rw [if_pos (Handler.subUnit.inj hh)]; rfl
      · rename_i _ hh
        rw [pure_ok] at h; subst h
        rw [if_neg (fun e => hh (by rw [e]))]; rfl
    rw [hg]
    rcases e5 with ⟨⟨rfl, hl⟩ | ⟨rfl, hl⟩, hf⟩ | ⟨rfl, hl, hf⟩
    · obtain ⟨a, b, c, d, rfl⟩ := list4 hl
      have k := (graphics_function_50 _ _ hf).1
      show _ = if d ∈ ([2, 50] : List Byte) then _ else _
      by_cases hm' : d ∈ ([2, 50] : List Byte)
      · rw [if_pos hm', if_pos (k.2 hm')]
      · rw [if_neg hm', if_neg (fun e => hm' (k.1 e))]
    · obtain ⟨a, b, c, d, e, f, rfl⟩ := list6 hl
      have k := (graphics_function_50 _ _ hf).1
      show _ = if f ∈ ([2, 50] : List Byte) then _ else _
      by_cases hm' : f ∈ ([2, 50] : List Byte)
      · rw [if_pos hm', if_pos (k.2 hm')]
      · rw [if_neg hm', if_neg (fun e => hm' (k.1 e))]
    · obtain ⟨a, b, c, d, rfl⟩ := list4 hl
      rw [if_neg (code2d_other hf)]; rfl

/-- The commands that are not asked tell nothing. -/
theorem unasked_told {cmd : Command} (hc : Known cmd) (hb : ¬ cmd.isBegin) (he : ¬ cmd.isEnd) (hm : unasked cmd.kind = true) (page : Bool) :
    Spec.deviceCommands page cmd.commands cmd.data = [] := by
  rcases hc with ⟨base, h1, h2, h3⟩ | ⟨op, hdr, x, e1, e2, _, e4, e5⟩
  · have hbase := known_base hb he h1 h3
    rw [h3.kind] at hm
    rw [h3.commands]
    clear h2 h3
    simp only [baseCommands, escPosCommands, List.cons_append, List.nil_append, List.mem_cons, List.not_mem_nil, or_false] at hbase
    rcases hbase with rfl | rfl | rfl | rfl | rfl | rfl | rfl | rfl | rfl | rfl | rfl | rfl | rfl | rfl | rfl | rfl | rfl | rfl | rfl | rfl | rfl | rfl | rfl | rfl | rfl | rfl | rfl | rfl | rfl | rfl | rfl | rfl | rfl | rfl | rfl | rfl | rfl | rfl | rfl | rfl | rfl | rfl | rfl | rfl | rfl | rfl | rfl | rfl | rfl | rfl | rfl | rfl | rfl | rfl | rfl | rfl | rfl <;> first | (cases hm; done) | rfl
  · rw [e1]
    rw [e2] at hm
    rcases e5 with ⟨⟨rfl, hl⟩ | ⟨rfl, hl⟩, hf⟩ | ⟨rfl, hl, hf⟩
    · obtain ⟨a, b, c, d, rfl⟩ := list4 hl
      obtain ⟨k1, k2⟩ := graphics_function_50 _ _ hf
      show (if d ∈ ([2, 50] : List Byte) then _ else _) = _
      rw [if_neg]
      intro hd
      rw [k2 (k1.2 hd)] at hm; cases hm
    · obtain ⟨a, b, c, d, e, f, rfl⟩ := list6 hl
      obtain ⟨k1, k2⟩ := graphics_function_50 _ _ hf
      show (if f ∈ ([2, 50] : List Byte) then _ else _) = _
      rw [if_neg]
      intro hd
      rw [k2 (k1.2 hd)] at hm; cases hm
    · obtain ⟨a, b, c, d, rfl⟩ := list4 hl
      rfl

/-- The commands that leave text waiting are the styles. -/
theorem style_kinds {cmd : Command} (hc : Known cmd) (hb : ¬ cmd.isBegin) (he : ¬ cmd.isEnd) (hs : cmd.commands ∉ Spec.styles) :
    cmd.kind ≠ .text ∧ cmd.kind ≠ .textStyle ∧ cmd.kind ≠ .subcommand := by
  rcases hc with ⟨base, h1, h2, h3⟩ | ⟨op, hdr, x, e1, e2, _, e4, e5⟩
  · have hbase := known_base hb he h1 h3
    rw [h3.commands] at hs
    rw [h3.kind]
    have k : ∀ b ∈ baseCommands, b.commands ∉ Spec.styles → b.kind ≠ .text ∧ b.kind ≠ .textStyle := by decide +kernel
    exact ⟨(k base hbase hs).1, (k base hbase hs).2, h2⟩
  · rw [e2]
    rcases e5 with ⟨_, hf⟩ | ⟨_, _, hf⟩
    · have k : ∀ n < 256, (Spec.graphicsFunction (UInt8.ofNat n)).all (fun x => decide (x.kind ≠ .text ∧ x.kind ≠ .textStyle ∧ x.kind ≠ .subcommand)) = true := by
        decide +kernel
      have := byte_all (P := fun b => (Spec.graphicsFunction b).all (fun x => decide (x.kind ≠ .text ∧ x.kind ≠ .textStyle ∧ x.kind ≠ .subcommand)) = true) k
        (metaFn hdr)
      rw [hf] at this
      exact of_decide_eq_true this
    · unfold Spec.code2dImplemented Spec.code2dFunction at hf
      split at hf
      · cases hf; decide
      · split at hf
        · cases hf
        · split at hf <;> first | (cases hf; decide) | cases hf

/-! ### The defaults never change -/

theorem applyContext_default {cmd : Command} {c c' : Context} (h : applyContext ext cmd c = .ok c') : c'.default = c.default := by
  have n1 : ∀ h : Hid, Setting.defaults ∉ applyWrites h := by intro h; cases h <;> decide
  have n2 : ∀ h : SubId, Setting.defaults ∉ subWrites h := by intro h; cases h <;> decide
  refine applyContext_only h .defaults ?_
  unfold handlerWrites; split
  · exact n1 _
  · exact n2 _
  · decide
  · split
    · exact n2 _
    · decide
  · decide

theorem deviceCommands_default {R : OutputRenderer σ Out} {ds : List DeviceCommand} {r r' : Renderer σ Out} (h : deviceCommands R ds r = .ok r') :
    r'.context.default = r.context.default := by
  induction ds generalizing r with
  | nil => simp only [deviceCommands, ok_ok] at h; subst h; rfl
  | cons d ds ih =>
    simp only [deviceCommands, bind_ok] at h
    obtain ⟨r1, h1, h2⟩ := h
    have n : ∀ d : DeviceCommand, Setting.defaults ∉ deviceWrites d := by
      intro d; cases d <;> simp [deviceWrites, penSettings, pageGeometry]
    exact (ih h2).trans (deviceContext_only (deviceCommand_context h1).1 .defaults (n d))

theorem penDown_default {c c' : Context} (h : PenDown c c') : c'.default = c.default := by
  obtain ⟨_, _, _, _, rfl, _, _⟩ := h; rfl

/-! ### One command -/

/-- What one command makes the renderer do: first it draws, then it tells. -/
structure Tells (cmd : Command) (page : Bool) (r r' : Recording) : Prop where
  calls : ∃ drawn after, r'.child = r.child ++ drawn ++ after ∧ (∀ x ∈ drawn, tells x.2 = none) ∧
    after.map (fun x => tells x.2) = ((Spec.deviceCommands page cmd.commands cmd.data).flatMap carried).map some
  printed : cmd.commands ∉ Spec.styles → r'.spanBuffer = []
  default : r'.context.default = r.context.default

theorem deviceCommands_spans {R : OutputRenderer σ Out} {ds : List DeviceCommand} {r r' : Renderer σ Out} (h : deviceCommands R ds r = .ok r') :
    r'.spanBuffer = r.spanBuffer := by
  induction ds generalizing r with
  | nil => simp only [deviceCommands, ok_ok] at h; subst h; rfl
  | cons d ds ih =>
    simp only [deviceCommands, bind_ok] at h
    obtain ⟨r1, h1, h2⟩ := h
    exact (ih h2).trans (deviceCommand_context h1).2

/-- Draws, then device commands. -/
theorem tells_of {cmd : Command} {page : Bool} {r r1 r' : Recording} {ds : List DeviceCommand} {c : Context} (hdraw : Draws r.child r1.child)
    (hds : ds = Spec.deviceCommands page cmd.commands cmd.data) (hc : c.default = r.context.default) (hspan : cmd.commands ∉ Spec.styles → r1.spanBuffer = [])
    (h : deviceCommands recorder ds { r1 with context := c } = .ok r') : Tells cmd page r r' := by
  obtain ⟨xs, e1, e2⟩ := hdraw
  obtain ⟨ys, f1, f2⟩ := deviceCommands_told h
  refine ⟨⟨xs, ys, ?_, e2, by rw [f2, hds]⟩, fun hs => ?_, ?_⟩
  · rw [f1]; show r1.child ++ ys = _; rw [e1]
  · rw [deviceCommands_spans h]; exact hspan hs
  · rw [deviceCommands_default h]; exact hc

theorem processCommand_told {cmd : Command} (hc : Known cmd) (hb : ¬ cmd.isBegin) (he : ¬ cmd.isEnd) {r r' : Recording}
    (hd : r.context.default = some defaultSettings) (h : processCommand recorder ext r cmd = .ok r') :
    Tells cmd r.context.pageMode.enabled r r' := by
  have hs := fun h => style_kinds hc hb he h
  cases hm : unasked cmd.kind
  · have hk : cmd.kind = .graphics ∨ cmd.kind = .contextControl ∨ cmd.kind = .control ∨ cmd.kind = .textStyle := by
      cases hk : cmd.kind <;> rw [hk] at hm <;> simp [unasked] at hm ⊢
    rcases hk with hk | hk | hk | hk
    · obtain ⟨r1, g, r2, o, h1, h2, h3, h4, h5⟩ := graphics_step h hk
      have q1 := processText_quiet h1
      have d1 : r1.context.default = r.context.default := penDown_default q1.4
      have d2 : PenDown r1.context r2.context ∧ r2.spanBuffer = [] := by
        unfold processGraphicsOpt at h3
        split at h3
        · obtain ⟨a, b, _⟩ := processGraphics_context q1.3 h3
          exact ⟨a, b⟩
        · rw [ok_ok] at h3; subst h3; exact ⟨PenDown.refl _, q1.3⟩
      have d3 := (penDown_default d2.1).trans d1
      exact tells_of ((processText_draws h1).trans (processGraphicsOpt_draws h3))
        (getDevice_told hc hb he (d3.trans hd) hm (fun hk' => by rw [hk] at hk'; cases hk') h4) d3 (fun _ => d2.2) h5
    · obtain ⟨r1, c, o, h1, h2, h3, h4⟩ := contextControl_step h hk
      have q1 := processText_quiet h1
      have d1 : c.default = r.context.default := (applyContext_default h2).trans (penDown_default q1.4)
      exact tells_of (processText_draws h1) (getDevice_told hc hb he (d1.trans hd) hm (fun hk' => by rw [hk] at hk'; cases hk') h3) d1 (fun _ => q1.3) h4
    · obtain ⟨r1, o, h1, h2, h3⟩ := control_step h hk
      have q1 := processText_quiet h1
      have d1 : r1.context.default = r.context.default := penDown_default q1.4
      exact tells_of (processText_draws h1) (getDevice_told hc hb he hd hm (fun _ => rfl) h2) d1 (fun _ => q1.3) h3
    · obtain ⟨c, o, h1, h2, h3⟩ := textStyle_step h hk
      have d1 : c.default = r.context.default := applyContext_default h1
      exact tells_of (Draws.refl _) (getDevice_told hc hb he (d1.trans hd) hm (fun hk' => by rw [hk] at hk'; cases hk') h2) d1
        (fun h => absurd hk (hs h).2.1) h3
  · have e := unasked_told hc hb he hm r.context.pageMode.enabled
    have key : Draws r.child r'.child ∧ (cmd.commands ∉ Spec.styles → r'.spanBuffer = []) ∧ r'.context.default = r.context.default := by
      unfold processCommand at h
      split at h <;> rename_i hk <;> rw [hk] at hm <;> first | (cases hm; done) | skip
      · simp only [bind_ok, pure_ok] at h
        obtain ⟨r1, h1, rfl⟩ := h
        have q1 := processText_quiet h1
        have q2 := processText_draws h1
        exact ⟨q2, fun _ => q1.3, penDown_default q1.4⟩
      · simp only [bind_ok] at h
        obtain ⟨o, h1, h⟩ := h
        split at h <;> (rw [pure_ok] at h; subst h; exact ⟨.refl _, fun h => absurd hk (hs h).1, rfl⟩)
      · simp only [bind_ok, pure_ok] at h
        obtain ⟨r1, h1, c, h2, rfl⟩ := h
        have q1 := processText_quiet h1
        have q2 := processText_draws h1
        exact ⟨q2, fun _ => q1.3, (applyContext_default h2).trans (penDown_default q1.4)⟩
      · rw [pure_ok] at h; subst h
        exact ⟨.refl _, fun h => absurd hk (hs h).2.2, rfl⟩
    obtain ⟨⟨xs, a1, a2⟩, b, c⟩ := key
    exact ⟨⟨xs, [], by rw [a1]; simp, a2, by rw [e]; rfl⟩, b, c⟩

/-! ### A job -/

/-- What the calls of a recording tell. -/
def toldBy (calls : List (Context × Call)) : List Spec.Told := calls.filterMap (fun x => tells x.2)

theorem toldBy_append (a b : List (Context × Call)) : toldBy (a ++ b) = toldBy a ++ toldBy b := List.filterMap_append ..

theorem toldBy_none {xs : List (Context × Call)} (h : ∀ x ∈ xs, tells x.2 = none) : toldBy xs = [] := by
  rw [toldBy, List.filterMap_eq_nil_iff]; exact h

theorem toldBy_map {xs : List (Context × Call)} {ts : List Spec.Told} (h : xs.map (fun x => tells x.2) = ts.map some) : toldBy xs = ts := by
  have : toldBy xs = (xs.map (fun x => tells x.2)).filterMap id := by rw [List.filterMap_map]; rfl
  rw [this, h, List.filterMap_map]
  show ts.filterMap some = ts
  exact List.filterMap_some

theorem Tells.told {cmd : Command} {page : Bool} {r r' : Recording} (h : Tells cmd page r r') :
    toldBy r'.child = toldBy r.child ++ (Spec.deviceCommands page cmd.commands cmd.data).flatMap carried := by
  obtain ⟨xs, ys, e1, e2, e3⟩ := h.calls
  rw [e1, toldBy_append, toldBy_append, toldBy_none e2, toldBy_map e3, List.append_nil]

theorem processCommands_told {cmds : List Command} (hc : ∀ c ∈ cmds, Known c ∧ ¬ c.isBegin ∧ ¬ c.isEnd) {r r' : Recording}
    (hd : r.context.default = some defaultSettings) (h : processCommands recorder ext cmds r = .ok r') :
    toldBy r'.child = toldBy r.child ++ told r.context.pageMode.enabled (cmds.map fun c => (c.commands, c.data)) ∧
    r'.context.default = some defaultSettings := by
  induction cmds generalizing r with
  | nil => simp only [processCommands, ok_ok] at h; subst h; exact ⟨by simp [told], hd⟩
  | cons cmd cmds ih =>
    simp only [processCommands, bind_ok] at h
    obtain ⟨r1, h1, h2⟩ := h
    obtain ⟨k1, k2, k3⟩ := hc cmd (by simp)
    have s := processCommand_told k1 k2 k3 hd h1
    obtain ⟨a, b⟩ := ih (fun c hm => hc c (by simp [hm])) (s.default.trans hd) h2
    refine ⟨?_, b⟩
    rw [a, s.told, (job_step k1 k3 h1).2, List.append_assoc]
    rfl

/-- C93. What an output renderer is told during a job, and in which order, follows from the bytes of the commands alone. -/
theorem C93_job_partial {bytes : List Byte} {cmds : List Command} {units errs} {r t : Recording} (hp : parseEscPos bytes = .ok cmds)
    (hd : r.context.default = some defaultSettings) (h : render recorder ext r bytes = .ok (units, errs, t)) :
    ∃ between, cmds = beginPrintCmd :: between ++ [endPrintCmd] ∧
      toldBy t.child = toldBy r.child ++ toldJob r.context.pageMode.enabled (between.map fun c => (c.commands, c.data)) ∧
      t.context.default = some defaultSettings := by
  simp only [render, bind_ok, pure_ok] at h
  obtain ⟨cmds', h1, t1, h2, h3⟩ := h
  rw [hp, ok_ok] at h1; subst h1
  simp only [Prod.mk.injEq] at h3
  obtain ⟨_, _, rfl⟩ := h3
  obtain ⟨mid, hm, hb⟩ := parseEscPos_framed hp
  have hk := parse_known hp
  refine ⟨mid, hm, ?_⟩
  rw [hm] at h2 hk
  rw [processCommands_append, bind_ok] at h2
  obtain ⟨r2, ha, hz⟩ := h2
  simp only [processCommands, bind_ok, ok_ok] at ha hz
  obtain ⟨r0, h0, ha⟩ := ha
  obtain ⟨t1, hz, rfl⟩ := hz
  have begins : toldBy r0.child = toldBy r.child ++ carried .beginPrint ∧ r0.context.default = r.context.default ∧
      r0.context.pageMode.enabled = r.context.pageMode.enabled := by
    have hj := (job_step (hk beginPrintCmd (by simp)) (by decide) h0).2
    obtain ⟨r3, o, a, b, c⟩ := control_step h0 rfl
    simp only [getDevice, beginPrintCmd, getDeviceUnit, pure_ok] at b
    subst b
    obtain ⟨xs, e1, e2⟩ := processText_draws a
    obtain ⟨ys, f1, f2⟩ := deviceCommands_told c
    refine ⟨?_, (deviceCommands_default c).trans (penDown_default (processText_quiet a).4), hj⟩
    rw [f1, e1, toldBy_append, toldBy_append, toldBy_none e2, toldBy_map f2, List.append_nil]
    rfl
  have ends : toldBy t1.child = toldBy r2.child ++ carried .endPrint ∧ t1.context.default = r2.context.default := by
    obtain ⟨r3, o, a, b, c⟩ := control_step hz rfl
    simp only [getDevice, endPrintCmd, getDeviceUnit, pure_ok] at b
    subst b
    obtain ⟨xs, e1, e2⟩ := processText_draws a
    obtain ⟨ys, f1, f2⟩ := deviceCommands_told c
    refine ⟨?_, (deviceCommands_default c).trans (penDown_default (processText_quiet a).4)⟩
    rw [f1, e1, toldBy_append, toldBy_append, toldBy_none e2, toldBy_map f2, List.append_nil]
    rfl
  obtain ⟨a, b⟩ := processCommands_told (fun c hc => ⟨hk c (by simp [hc]), hb c hc⟩) (begins.2.1.trans hd) ha
  refine ⟨?_, ends.2.trans b⟩
  show toldBy t1.child = _
  rw [ends.1, a, begins.1, begins.2.2]
  simp only [toldJob, List.append_assoc]

/-- C93, one command of any stream after any history: first what was waiting is drawn (a style leaves it waiting) and what the command draws, then the
device commands are announced and carried out, each announced before it is carried out. -/
theorem C93_command_partial {bytes : List Byte} {cmds : List Command} (hp : parseEscPos bytes = .ok cmds) {cmd : Command} (hm : cmd ∈ cmds)
    (hb : ¬ cmd.isBegin) (he : ¬ cmd.isEnd) {r r' : Recording} (hd : r.context.default = some defaultSettings)
    (h : processCommand recorder ext r cmd = .ok r') :
    (∃ drawn after, r'.child = r.child ++ drawn ++ after ∧ (∀ x ∈ drawn, tells x.2 = none) ∧
      after.map (fun x => tells x.2) = ((Spec.deviceCommands r.context.pageMode.enabled cmd.commands cmd.data).flatMap carried).map some) ∧
    (cmd.commands ∉ Spec.styles → r'.spanBuffer = []) :=
  have k := processCommand_told (parse_known hp cmd hm) hb he hd h
  ⟨k.calls, k.printed⟩

/-- C93, for every output renderer: a new renderer's first job makes calls that tell exactly this. -/
theorem C93_any_partial {R : OutputRenderer σ Out} {s : σ} {bytes : List Byte} {outs errs r}
    (h : render R ext (Renderer.new s) bytes = .ok (outs, errs, r)) :
    ∃ between calls, parseEscPos bytes = .ok (beginPrintCmd :: between ++ [endPrintCmd]) ∧ replay R calls (s, []) = .ok (r.child, outs) ∧
      toldBy calls = toldJob false (between.map fun c => (c.commands, c.data)) := by
  obtain ⟨units, errs', t, h1, h2, _⟩ := C68_same_calls R ext s bytes outs errs r h
  have hp := h1
  simp only [render, bind_ok] at hp
  obtain ⟨cmds, hp, _⟩ := hp
  obtain ⟨mid, e1, e2, _⟩ := C93_job_partial (r := Renderer.new []) hp rfl h1
  exact ⟨mid, t.child, by rw [hp, e1], h2, e2⟩

/-- What a stream tells. -/
def toldOf (bytes : List Byte) : Rs (List Spec.Told) := (render recorder noExt (Renderer.new []) bytes).map fun x => toldBy x.2.2.child

/-- C93, a job: text, a cut, a page with its area, printed, the end. -/
example : toldOf [65, 10, 29, 86, 48, 27, 76, 27, 84, 1, 66, 12] =
    .ok [.command .beginPrint, .documentBegins, .command .fullCut, .command .beginPageMode, .pageBegins, .command .changePageModeDirection, .pageShaped,
      .command .endPageMode, .pageEnds, .command .printPageMode, .pagePrinted, .command .endPrint, .documentEnds] := by decide +kernel

/-- C93, not as the documentation has it: the pulse for the drawer (ESC p) and the request for the printer's id (GS I) are not told at all; ESC S leaves
page mode, but the renderer is not told that the page ended; of feed and cut (GS V 66 n) the cut is told first. -/
theorem C93_deviations :
    toldOf [27, 112, 0, 25, 250] = .ok [.command .beginPrint, .documentBegins, .command .endPrint, .documentEnds] ∧
    toldOf [29, 73, 1] = .ok [.command .beginPrint, .documentBegins, .command .endPrint, .documentEnds] ∧
    toldOf [27, 76, 27, 83] = .ok [.command .beginPrint, .documentBegins, .command .beginPageMode, .pageBegins, .command .endPrint, .documentEnds] ∧
    toldOf [29, 86, 66, 20] =
      .ok [.command .beginPrint, .documentBegins, .command .partialCut, .command (.feed 20), .command .endPrint, .documentEnds] := by
  refine ⟨?_, ?_, ?_, ?_⟩ <;> decide +kernel

end Thermal
