import Verif.Proofs.Handed
import Verif.Proofs.Spans
/-
An invariant of the pieces of text handed to the output renderer.
-/
namespace Thermal

/-- A property of spans that does not depend on the text or the place. -/
def OfLook (P : TextSpan → Prop) : Prop := ∀ (t : TextSpan) (s : Str) (d : Option Dimensions), P t → P { t with
  text := s
  dimensions := d }

namespace Dressed
variable {P : TextSpan → Prop} (hP : OfLook P)
include hP

theorem at_ {s : TextSpan} (h : P s) (c : Context) : P (s.at_ c) := hP s s.text _ h

theorem clone {s : TextSpan} (h : P s) (x : Str) : P (s.cloneWith x) := hP s x none h

omit hP in
/-- The spans of a layout. -/
def Lay (P : TextSpan → Prop) (l : Layout) : Prop := (∀ line ∈ l.lines, ∀ s ∈ line, P s) ∧ ∀ s ∈ l.currentLine, P s

omit hP in
theorem Lay.finish {l l' : Layout} (h : Lay P l) (e : l.finishLine = .ok l') : Lay P l' := by
  simp only [Layout.finishLine, bind_ok, pure_ok] at e
  obtain ⟨c, h1, rfl⟩ := e
  refine ⟨?_, by simp⟩
  intro line hl
  rcases List.mem_append.1 hl with hl | hl
  · exact h.1 line hl
  · rw [List.mem_singleton.1 hl]; exact h.2

omit hP in
theorem Lay.put {l : Layout} (h : Lay P l) {s : TextSpan} (hs : P s) {c : Context} : Lay P ⟨c, l.lines, l.currentLine ++ [s]⟩ := by
  refine ⟨h.1, ?_⟩
  intro t ht
  rcases List.mem_append.1 ht with ht | ht
  · exact h.2 t ht
  · rw [List.mem_singleton.1 ht]; exact hs

theorem layoutBroken {bs : List TextSpan} {l l' : Layout} (hb : ∀ b ∈ bs, P b) (hl : Lay P l) (h : layoutBroken bs l = .ok l') : Lay P l' := by
  induction bs generalizing l with
  | nil => simp only [Thermal.layoutBroken, ok_ok] at h; subst h; exact hl
  | cons b rest ih =>
    cases rest with
    | nil =>
      simp only [Thermal.layoutBroken, bind_ok, pure_ok] at h
      obtain ⟨b', hb', w, _, c, h1, rfl⟩ := h
      rw [(getDimensions_ok hb').1]
      exact hl.put (at_ hP (hb b (by simp)) _)
    | cons b2 rest =>
      simp only [Thermal.layoutBroken, bind_ok] at h
      obtain ⟨b', hb', l1, h1, h2⟩ := h
      rw [(getDimensions_ok hb').1] at h1
      exact ih (fun x hx => hb x (by simp [hx])) ((hl.put (c := l.context) (at_ hP (hb b (by simp)) _)).finish h1) h2

theorem breakApart {w : TextSpan} {f n : Nat} {bs} (hw : P w) (h : w.breakApart f n = .ok bs) : ∀ b ∈ bs, P b := by
  unfold TextSpan.breakApart at h
  split at h
  · cases h
  split at h
  · rw [ok_ok] at h; subst h
    intro b hb
    rcases List.mem_cons.1 hb with rfl | hb
    · exact clone hP hw _
    · obtain ⟨s, _, rfl⟩ := List.mem_map.1 hb; exact clone hP hw _
  · rw [ok_ok] at h; subst h
    intro b hb
    rcases List.mem_cons.1 hb with rfl | hb
    · exact clone hP hw _
    · obtain ⟨s, _, rfl⟩ := List.mem_map.1 hb; exact clone hP hw _

theorem layoutWord {m : Nat} {l l' : Layout} {w : TextSpan} (hw : P w) (hl : Lay P l) (h : layoutWord m l w = .ok l') : Lay P l' := by
  simp only [Thermal.layoutWord, bind_ok] at h
  obtain ⟨ww, _, h⟩ := h
  split at h
  · simp only [bind_ok, pure_ok] at h
    obtain ⟨l1, h1, rfl⟩ := h
    have a := hl.finish h1
    refine ⟨?_, a.2⟩
    intro line hm
    rcases List.mem_append.1 hm with hm | hm
    · exact a.1 line hm
    · rw [List.mem_singleton.1 hm]; simp
  split at h
  · simp only [bind_ok] at h
    obtain ⟨o, ht, h⟩ := h
    split at h
    · simp only [bind_ok, pure_ok] at h
      obtain ⟨c, h1, rfl⟩ := h
      exact hl
    · rw [pure_ok] at h; subst h; exact hl
  split at h
  · simp only [bind_ok, pure_ok] at h
    obtain ⟨b', hb, c, h1, rfl⟩ := h
    rw [(getDimensions_ok hb).1]
    exact hl.put (at_ hP hw _)
  split at h
  · simp only [bind_ok] at h
    obtain ⟨_, _, _, _, bs, hb, h⟩ := h
    exact layoutBroken hP (breakApart hP hw hb) hl h
  · simp only [bind_ok, pure_ok] at h
    obtain ⟨l1, h1, b', hb, c, h2, rfl⟩ := h
    rw [(getDimensions_ok hb).1]
    exact (hl.finish h1).put (at_ hP hw _)

theorem layoutWords {m : Nat} {ws : List TextSpan} {l l' : Layout} (hw : ∀ w ∈ ws, P w) (hl : Lay P l) (h : layoutWords m ws l = .ok l') :
    Lay P l' := by
  induction ws generalizing l with
  | nil => simp only [Thermal.layoutWords, ok_ok] at h; subst h; exact hl
  | cons w ws ih =>
    simp only [Thermal.layoutWords, bind_ok] at h
    obtain ⟨l1, h1, h2⟩ := h
    exact ih (fun x hx => hw x (by simp [hx])) (layoutWord hP (hw w (by simp)) hl h1) h2

theorem layoutText {ss : List TextSpan} {c c' : Context} {ls} (hs : ∀ s ∈ ss, P s) (h : layoutText ss c = .ok (c', ls)) :
    ∀ line ∈ ls, ∀ s ∈ line, P s := by
  simp only [Thermal.layoutText, bind_ok, pure_ok, Prod.mk.injEq] at h
  obtain ⟨l, h1, rfl, rfl⟩ := h
  have a := layoutWords hP (l := ⟨c, [], []⟩) (by
    intro w hw
    obtain ⟨s, h1, h2⟩ := List.mem_flatMap.1 hw
    obtain ⟨x, _, rfl⟩ := List.mem_map.1 h2
    exact clone hP (hs s h1) x) ⟨by simp, by simp⟩ h1
  split
  · exact a.1
  · intro line hm
    rcases List.mem_append.1 hm with hm | hm
    · exact a.1 line hm
    · rw [List.mem_singleton.1 hm]; exact a.2

end Dressed

namespace Renderer
variable {ext : Ext}

/-- The spans of a call have a property; a line is as high as the highest of them. -/
def _root_.Thermal.Call.Wears (P : TextSpan → Prop) : Call → Prop
  | .text l _ mh _ => (∀ t ∈ l, P t) ∧ mh = lineHeight l
  | _ => True

/-- The spans waiting and those handed over have a property, and the context one that goes with it. -/
structure Dressed (K : Context → Prop) (P : TextSpan → Prop) (r : Recording) : Prop where
  context : K r.context
  waiting : ∀ t ∈ r.spanBuffer, P t
  calls : ∀ x ∈ r.child, x.2.Wears P

variable {K : Context → Prop} {P : TextSpan → Prop} {D : DeviceCommand → Prop}

theorem Dressed.snoc {r : Recording} (h : Dressed K P r) {c c' : Context} (hc' : K c') {x : Call} (hx : x.Wears P) :
    Dressed K P { r with
      child := r.child ++ [(c, x)]
      context := c' } := by
  refine ⟨hc', h.waiting, fun y hy => ?_⟩
  rcases List.mem_append.1 hy with hy | hy
  · exact h.calls y hy
  · rw [List.mem_singleton.1 hy]; exact hx

theorem Dressed.move {r : Recording} (h : Dressed K P r) {c : Context} (hc : K c) : Dressed K P { r with context := c } :=
  ⟨hc, h.waiting, h.calls⟩

theorem renderLines_dressed {ls} {r r' : Recording} (hl : ∀ line ∈ ls, ∀ s ∈ line, P s) (hr : Dressed K P r)
    (h : renderLines recorder ls r = .ok r') : Dressed K P r' := by
  induction ls generalizing r with
  | nil => simp only [renderLines, ok_ok] at h; subst h; exact hr
  | cons l ls ih =>
    simp only [renderLines, bind_ok] at h
    obtain ⟨r1, h1, h2⟩ := h
    refine ih (fun line hm => hl line (by simp [hm])) ?_ h2
    unfold renderLine at h1
    split at h1
    · rw [ok_ok] at h1; subst h1; exact hr
    · simp only [bind_ok, pure_ok, recorder, ok_ok] at h1
      obtain ⟨_, _, _, _, s, rfl, rfl⟩ := h1
      exact hr.snoc hr.context ⟨hl (_ :: _) (by simp), rfl⟩

variable (hP : OfLook P) (hpen : ∀ {c c' : Context}, PenDown c c' → K c → K c') (hnew : ∀ {c}, K c → ∀ s, P (TextSpan.new s c))
  (hcap : ∀ {cmd c b}, K c → getGraphics ext cmd c = .ok (some (.barcode b)) → P b.text)

include hP hpen in
theorem processText_dressed {r r' : Recording} (hr : Dressed K P r) (h : processText recorder r = .ok r') : Dressed K P r' := by
  unfold processText at h
  split at h
  · rw [ok_ok] at h; subst h; exact hr
  · simp only [bind_ok] at h
    obtain ⟨⟨c, ls⟩, h1, h⟩ := h
    exact renderLines_dressed (r := { r with
      spanBuffer := []
      context := c }) (Dressed.layoutText hP hr.waiting h1) ⟨hpen (PenDown.layoutText h1) hr.context, by simp, hr.calls⟩ h

include hP hpen in
theorem barcodeText_dressed {r r' : Recording} {b} (hb : P b.text) (hr : Dressed K P r) (h : barcodeText recorder r b = .ok r') : Dressed K P r' := by
  simp only [barcodeText, bind_ok, pure_ok] at h
  obtain ⟨r1, h1, c, h2, rfl⟩ := h
  have := processText_dressed hP hpen (r := r.collectText b.text) ⟨hr.context, by
    intro t ht
    rcases List.mem_append.1 ht with ht | ht
    · exact hr.waiting t ht
    · rw [List.mem_singleton.1 ht]; exact hb, hr.calls⟩ h1
  exact this.move (hpen (PenDown.newline h2) this.context)

include hP hpen in
theorem processGraphicsOpt_dressed {r r' : Recording} {g} (hg : ∀ b, g = some (.barcode b) → P b.text) (hr : Dressed K P r)
    (h : processGraphicsOpt recorder r g = .ok r') : Dressed K P r' := by
  unfold processGraphicsOpt at h
  split at h
  · unfold processGraphics at h
    split at h
    · rw [pure_ok] at h; subst h; exact ⟨hr.context, hr.waiting, hr.calls⟩
    · simp only [processCode2d, bind_ok, pure_ok, recorder, ok_ok] at h
      obtain ⟨_, _, c1, h1, ⟨c2, gs⟩, h2, _, rfl, rfl⟩ := h
      have j := hpen ((PenDown.setX h1).trans ((PenDown.code2dLoop h2).trans (PenDown.resetX _))) hr.context
      exact hr.snoc j trivial
    · simp only [processBarcode, bind_ok] at h
      have hb := hg _ rfl
      obtain ⟨r1, h1, r2, h2, h3⟩ := h
      have a : Dressed K P r1 := by
        unfold barcodeAbove at h1
        split at h1
        · exact barcodeText_dressed hP hpen hb hr h1
        · rw [ok_ok] at h1; subst h1; exact hr
      have b : Dressed K P r2 := by
        simp only [barcodeBars, bind_ok, pure_ok, recorder, ok_ok] at h2
        obtain ⟨_, _, c1, e1, ⟨c2, gs⟩, e2, _, rfl, c3, e3, rfl⟩ := h2
        have j := hpen ((PenDown.setX e1).trans (PenDown.barcodeLoop e2)) a.context
        exact a.snoc (hpen ((PenDown.resetX _).trans (PenDown.offsetY e3)) j) trivial
      unfold barcodeBelow at h3
      split at h3
      · simp only [bind_ok] at h3
        obtain ⟨c, e1, h3⟩ := h3
        exact barcodeText_dressed hP hpen hb (b.move (hpen (PenDown.offsetY e1) b.context)) h3
      · rw [ok_ok] at h3; subst h3; exact b
    · simp only [processImage, bind_ok, pure_ok, recorder, ok_ok] at h
      obtain ⟨c1, h1, _, rfl, c2, h2, rfl⟩ := h
      have j := hpen (PenDown.imageBefore h1) hr.context
      exact hr.snoc (hpen (PenDown.imageAfter h2) j) trivial
    · rw [pure_ok] at h; subst h; exact hr
  · rw [ok_ok] at h; subst h; exact hr

theorem deviceCommand_dressed (hdev : ∀ {d c c'}, D d → deviceContext d c = .ok c' → K c → K c') {d} (hd : D d) {r r' : Recording}
    (hr : Dressed K P r) (h : deviceCommand recorder r d = .ok r') : Dressed K P r' := by
  have hc := hdev hd (deviceCommand_context h).1 hr.context
  simp only [deviceCommand, bind_ok, recorder, ok_ok] at h
  obtain ⟨s, rfl, h⟩ := h
  have h0 := hr.snoc hr.context (x := .device d) (c := r.context) trivial
  cases d <;> simp only [bind_ok, pure_ok, ok_ok] at h
  case beginPrint => obtain ⟨c, h1, s, rfl, rfl⟩ := h; exact h0.snoc hc trivial
  case endPrint =>
    obtain ⟨_, rfl, rfl⟩ := h
    exact ⟨hc, hr.waiting, (h0.snoc (x := .endRender) (c := r.context) hc trivial).calls⟩
  case feedLine => obtain ⟨c, h1, rfl⟩ := h; exact h0.move hc
  case feed => obtain ⟨c, h1, rfl⟩ := h; exact h0.move hc
  case fullCut => obtain ⟨c, h1, rfl⟩ := h; exact h0.move hc
  case partialCut => obtain ⟨c, h1, rfl⟩ := h; exact h0.move hc
  case beginPageMode => obtain ⟨c, rfl, rfl⟩ := h; exact h0.snoc hc trivial
  case endPageMode => obtain ⟨c, rfl, rfl⟩ := h; exact h0.snoc hc trivial
  case printPageMode => obtain ⟨s, rfl, y, h1, rfl⟩ := h; exact h0.snoc hc trivial
  case changePageArea =>
    simp only [pageAreaChanged, bind_ok, pure_ok, ok_ok] at h
    obtain ⟨⟨p, rot, w, hh⟩, h1, s, rfl, rfl⟩ := h
    exact h0.snoc hc trivial
  case changePageModeDirection =>
    simp only [pageAreaChanged, bind_ok, pure_ok, ok_ok] at h
    obtain ⟨⟨p, rot, w, hh⟩, h1, s, rfl, rfl⟩ := h
    exact h0.snoc hc trivial
  all_goals (subst h; exact h0.move hc)

theorem deviceCommands_dressed (hdev : ∀ {d c c'}, D d → deviceContext d c = .ok c' → K c → K c') {ds : List DeviceCommand} (hd : ∀ d ∈ ds, D d)
    {r r' : Recording} (hr : Dressed K P r) (h : deviceCommands recorder ds r = .ok r') : Dressed K P r' := by
  induction ds generalizing r with
  | nil => simp only [deviceCommands, ok_ok] at h; subst h; exact hr
  | cons d ds ih =>
    simp only [deviceCommands, bind_ok] at h
    obtain ⟨r1, h1, h2⟩ := h
    exact ih (fun x hx => hd x (by simp [hx])) (deviceCommand_dressed hdev (hd d (by simp)) hr h1) h2

include hP hpen hnew hcap

theorem processCommand_dressed (hdev : ∀ {d c c'}, D d → deviceContext d c = .ok c' → K c → K c') {cmd : Command}
    (hget : ∀ {c o}, getDevice cmd c = .ok o → ∀ d ∈ o.getD [], D d)
    (happ : ∀ {c c'}, applyContext ext cmd c = .ok c' → K c → K c') {r r' : Recording} (hr : Dressed K P r)
    (h : processCommand recorder ext r cmd = .ok r') : Dressed K P r' := by
  unfold processCommand at h
  split at h
  · simp only [bind_ok, pure_ok] at h
    obtain ⟨r1, h1, rfl⟩ := h
    have := processText_dressed hP hpen hr h1
    exact ⟨this.context, this.waiting, this.calls⟩
  · simp only [bind_ok] at h
    obtain ⟨o, h1, h⟩ := h
    split at h
    · rw [pure_ok] at h; subst h
      obtain ⟨s, rfl⟩ := getText_span h1
      refine ⟨hr.context, ?_, hr.calls⟩
      intro t ht
      rcases List.mem_append.1 ht with ht | ht
      · exact hr.waiting t ht
      · rw [List.mem_singleton.1 ht]; exact hnew hr.context s
    · rw [pure_ok] at h; subst h; exact hr
  · simp only [bind_ok] at h
    obtain ⟨r1, h1, g, h2, r2, h3, o, h4, h5⟩ := h
    have a := processText_dressed hP hpen hr h1
    exact deviceCommands_dressed hdev (hget h4) (processGraphicsOpt_dressed hP hpen (fun b e => hcap a.context (e ▸ h2)) a h3) h5
  · simp only [bind_ok, pure_ok] at h
    obtain ⟨r1, h1, c, h2, rfl⟩ := h
    have a := processText_dressed hP hpen hr h1
    exact a.move (happ h2 a.context)
  · simp only [bind_ok] at h
    obtain ⟨r1, h1, c, h2, o, h3, h4⟩ := h
    have a := processText_dressed hP hpen hr h1
    exact deviceCommands_dressed hdev (hget h3) (a.move (happ h2 a.context)) h4
  · simp only [bind_ok] at h
    obtain ⟨o, h3, r1, h1, h4⟩ := h
    exact deviceCommands_dressed hdev (hget h3) (processText_dressed hP hpen hr h1) h4
  · simp only [bind_ok] at h
    obtain ⟨c, h2, o, h3, h4⟩ := h
    exact deviceCommands_dressed hdev (hget h3) (hr.move (happ h2 hr.context)) h4
  · rw [pure_ok] at h; subst h; exact hr

theorem processCommands_dressed (hdev : ∀ {d c c'}, D d → deviceContext d c = .ok c' → K c → K c') {cmds : List Command}
    (hget : ∀ cmd ∈ cmds, ∀ {c o}, getDevice cmd c = .ok o → ∀ d ∈ o.getD [], D d)
    (happ : ∀ {cmd c c'}, applyContext ext cmd c = .ok c' → K c → K c') {r r' : Recording} (hr : Dressed K P r)
    (h : processCommands recorder ext cmds r = .ok r') : Dressed K P r' := by
  induction cmds generalizing r with
  | nil => simp only [processCommands, ok_ok] at h; subst h; exact hr
  | cons d ds ih =>
    simp only [processCommands, bind_ok] at h
    obtain ⟨r1, h1, h2⟩ := h
    exact ih (fun cmd hm => hget cmd (by simp [hm])) (processCommand_dressed hP hpen hnew hcap hdev (hget d (by simp)) happ hr h1) h2

end Renderer
end Thermal
