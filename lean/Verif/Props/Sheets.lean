import Verif.Proofs.Paint
import Verif.Proofs.Perform
import Verif.Props.Picture
/-
C82: all images of a job, with pages.
-/
namespace Thermal
open Spec Renderer ImageRenderer

/-- The first calls of every job. -/
theorem first_calls {ext : Ext} {bytes : List Byte} {outs errs} {t : Recording} (h : render recorder ext (Renderer.new []) bytes = .ok (outs, errs, t)) :
    ∃ c1 calls, t.child = (Context.new, .device .beginPrint) :: (c1, .beginRender) :: calls := by
  simp only [render, bind_ok, pure_ok] at h
  obtain ⟨cmds, h1, r1, h2, h3⟩ := h
  simp only [Prod.mk.injEq] at h3
  obtain ⟨_, _, rfl⟩ := h3
  obtain ⟨mid, hm, _⟩ := parseEscPos_framed h1
  rw [hm] at h2
  rw [List.cons_append] at h2
  simp only [processCommands, bind_ok] at h2
  obtain ⟨r3, ha, hb'⟩ := h2
  obtain ⟨r4, o, a1, a2, a3⟩ := control_step ha rfl
  have e4 : r4 = Renderer.new [] := by
    simp only [processText, Renderer.new, if_true, ok_ok] at a1
    exact a1.symm
  subst e4
  simp only [getDevice, beginPrintCmd, getDeviceUnit, pure_ok] at a2
  subst a2
  simp only [Option.getD, deviceCommands, deviceCommand, recorder, bind_ok, pure_ok, ok_ok] at a3
  obtain ⟨_, ⟨_, rfl, c1, hc1, _, rfl, rfl⟩, rfl⟩ := a3
  obtain ⟨calls, e⟩ := processCommands_prefix hb'
  exact ⟨c1, calls, e.symm⟩

/-- C82. Whatever a stream contains - any number of documents, pages in any print direction - the images that are returned are, one for one,
the sheets that the calls of the job print. -/
theorem C82_sheets (gs : Canvas.Glyphs) (ext : Ext) (bytes : List Byte) (outs errs r)
    (h : render (imageRenderer gs) ext (Renderer.new (ImageRenderer.new {})) bytes = .ok (outs, errs, r)) :
    ∃ units errs' t, render recorder ext (Renderer.new []) bytes = .ok (units, errs', t) ∧
      List.Forall₂ ShowsSheet outs (printedSheets gs 609 (t.child.flatMap fun x => callActs x)) := by
  obtain ⟨u, e, t, a1, a2, _⟩ := C68_same_calls _ ext _ bytes outs errs r h
  refine ⟨u, e, t, a1, ?_⟩
  have hdress := render_outfit a1
  have hctx : ∀ x ∈ t.child, OnPaper x.1 := by
    have a1' := a1
    simp only [render, bind_ok, pure_ok] at a1'
    obtain ⟨cs, h1, r1, h2, h3⟩ := a1'
    simp only [Prod.mk.injEq] at h3
    obtain ⟨rfl, rfl, rfl⟩ := h3
    exact (processCommands_always (J := OnPaper) OnPaper.pen OnPaper.device OnPaper.apply (r := Renderer.new []) ⟨OnPaper.start, by simp [Renderer.new]⟩ h2).2
  obtain ⟨c1, calls, ec⟩ := first_calls a1
  unfold printedSheets
  rw [← calls_step]
  rw [ec] at a2 hdress hctx ⊢
  simp only [replay, bind_ok, Call.perform, imageRenderer, ok_ok] at a2
  obtain ⟨s1, ⟨_, rfl, rfl⟩, s2, ⟨_, rfl, rfl⟩, a2⟩ := a2
  obtain ⟨b1, b2⟩ := beginRender_at (s := ImageRenderer.new {}) (hctx (c1, .beginRender) (by simp)) rfl rfl
  have hat : At (ImageRenderer.beginRender c1 (ImageRenderer.new {}), []) ⟨some .blank, .empty, []⟩ := ⟨rfl, b1, b2, .nil⟩
  have := hat.replay (xs := calls) (fun x hx => ⟨hctx x (by simp [hx]), hdress x (by simp [hx])⟩) a2
  have hs : (Sheets.call gs 609 (Sheets.call gs 609 Sheets.none (Context.new, .device .beginPrint)) (c1, .beginRender)) = ⟨some .blank, .empty, []⟩ := by
    rfl
  rw [List.foldl_cons, List.foldl_cons, hs]
  exact this.done

/-- A page of 100 by 60 dots with the text "AB" running upwards, the text "C" below it; after a form feed, which ends the document, "D". -/
def pageJob : List Byte := [27, 76, 27, 87, 0, 0, 0, 0, 100, 0, 60, 0, 27, 84, 1, 65, 66, 10, 12, 67, 12, 68]

/-- The sheets of that job, and how long they are: on the first one the dots of A and B, turned, and those of C; the second one is blank. -/
example : ∃ units errs t, render recorder noExt (Renderer.new []) pageJob = .ok (units, errs, t) ∧
    (printedSheets dotty 609 (t.child.flatMap fun x => callActs x)).map (fun R => (R.reach, (List.range 24).flatMap fun y => (List.range 8).filterMap fun x =>
      if R.dots x (144 + y) = ⟨255, 255, 255, 255⟩ then none else some (x, 144 + y))) =
        [(232, [(6, 151), (5, 152), (6, 163), (5, 164)]), (208, [])] := by
  refine ⟨_, _, _, rfl, ?_⟩
  decide +kernel

end Thermal
