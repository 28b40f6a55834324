import Verif.Props.Again
import Verif.Props.Web
/-
C88, web pages: jobs rendered one after the other with one HTML renderer.
-/
namespace Thermal
open Html Spec Renderer

/-- Print jobs one after the other with the same HTML renderer; all documents. -/
def Renderer.webJobs (gs : Canvas.Glyphs) (png : Png) (ext : Ext) : List (List Byte) → Renderer HtmlRenderer Str → Rs (List Str)
  | [], _ => .ok []
  | b :: bs, r => do
    let (outs, _, r) ← render (htmlRenderer gs png) ext r b
    let more ← webJobs gs png ext bs r
    pure (outs ++ more)

/-- An HTML renderer between two jobs. -/
structure WebResting (r : Renderer HtmlRenderer Str) : Prop where
  calm : r.child.debug = {}
  paper : OnPaper r.context
  outfit : Outfit r.context
  range : InU32 r.context
  outputs : r.outputBuffer = []
  errors : r.errorBuffer = []
  spans : r.spanBuffer = []

theorem WebResting.new : WebResting (Renderer.new HtmlRenderer.new) := ⟨rfl, OnPaper.start, Outfit.start, InU32.start, rfl, rfl, rfl⟩

theorem web_calm_call {gs : Canvas.Glyphs} {png : Png} {x : Context × Call} {s s' : HtmlRenderer × List Str}
    (h : Call.perform (htmlRenderer gs png) x s = .ok s') : s'.1.debug = s.1.debug := by
  obtain ⟨c, x⟩ := x
  obtain ⟨s, outs⟩ := s
  dsimp only at *
  cases x <;> simp only [Call.perform, htmlRenderer, bind_ok, ok_ok] at h
  case beginRender =>
    obtain ⟨u, e, rfl⟩ := h
    exact (HtmlRenderer.pushRow_page e s.page {}).2
  case endRender =>
    obtain ⟨⟨u, o⟩, e, rfl⟩ := h
    simp only [Prod.mk.injEq] at e
    obtain ⟨rfl, rfl⟩ := e
    rfl
  case pageBegin => obtain ⟨u, rfl, rfl⟩ := h; rfl
  case pageEnd => obtain ⟨u, rfl, rfl⟩ := h; rfl
  case device => obtain ⟨u, rfl, rfl⟩ := h; rfl
  case pageAreaChanged =>
    obtain ⟨u, e, rfl⟩ := h
    simp only [HtmlRenderer.pageAreaChanged, bind_ok, pure_ok] at e
    obtain ⟨_, _, _, _, _, _, rfl⟩ := e
    rfl
  case renderPage =>
    obtain ⟨u, e, rfl⟩ := h
    simp only [HtmlRenderer.renderPage, bind_ok] at e
    obtain ⟨_, _, _, _, _, _, e⟩ := e
    exact (HtmlRenderer.pushRow_page e s.page {}).2
  case graphics =>
    obtain ⟨u, e, rfl⟩ := h
    simp only [HtmlRenderer.renderGraphics] at e
    split at e <;> simp only [bind_ok, pure_ok] at e
    · obtain ⟨_, _, rfl⟩ := e; rfl
    · obtain ⟨_, _, e⟩ := e; exact (HtmlRenderer.pushRow_page e s.page {}).2
  case image =>
    obtain ⟨u, e, rfl⟩ := h
    simp only [HtmlRenderer.renderImage] at e
    split at e <;> simp only [bind_ok, pure_ok] at e
    · obtain ⟨_, _, rfl⟩ := e; rfl
    · obtain ⟨_, _, e⟩ := e; exact (HtmlRenderer.pushRow_page e s.page {}).2
  case text =>
    obtain ⟨u, e, rfl⟩ := h
    simp only [HtmlRenderer.renderText] at e
    split at e <;> simp only [bind_ok, pure_ok] at e
    · obtain ⟨_, _, rfl⟩ := e; rfl
    · obtain ⟨_, _, e⟩ := e; exact (HtmlRenderer.pushRow_page e s.page {}).2

theorem web_calm {gs : Canvas.Glyphs} {png : Png} {xs : List (Context × Call)} {s s' : HtmlRenderer × List Str}
    (h : replay (htmlRenderer gs png) xs s = .ok s') : s'.1.debug = s.1.debug := by
  induction xs generalizing s with
  | nil => simp only [replay, ok_ok] at h; subst h; rfl
  | cons x xs ih =>
    simp only [replay, bind_ok] at h
    obtain ⟨s1, h1, h2⟩ := h
    exact (ih h2).trans (web_calm_call h1)

/-- A new document. -/
theorem begin_web (gs : Canvas.Glyphs) (c c1 : Context) :
    Web.call gs (Web.call gs Web.none (c, .device .beginPrint)) (c1, .beginRender) = ⟨.empty, [.space c1.getY], []⟩ := by
  show (⟨.empty, [.space c1.getY], (Web.call gs Web.none (c, .device .beginPrint)).done⟩ : Web) = _
  have : (Web.call gs Web.none (c, .device .beginPrint)).done = [] := by
    simp only [Web.call]
    split <;> rfl
  rw [this]

/-- One of several jobs. -/
theorem WebResting.job {gs : Canvas.Glyphs} {png : Png} {B : Prop} (hpng : ∀ w h b, '{' ∉ png w h b) {ext : Ext} {r r' : Renderer HtmlRenderer Str}
    {bytes : List Byte} {outs errs} (hr : WebResting r) (h : render (htmlRenderer gs png) ext r bytes = .ok (outs, errs, r')) :
    WebResting r' ∧ ∃ units errs' t, render recorder ext ⟨[], [], [], [], r.context⟩ bytes = .ok (units, errs', t) ∧ t.context = r'.context ∧
      (((∃ x ∈ t.child, x.2 = .graphics []) → B) → (∀ a ∈ t.child.flatMap fun x => callActs x, '{' ∉ a.paperText) →
        List.Forall₂ (IsWebPage png B documentHead) outs (webSheets gs (t.child.flatMap fun x => callActs x))) := by
  have hleft := C50_nothing_left h
  simp only [render, bind_ok, pure_ok] at h
  obtain ⟨cmds, h1, r1, h2, h3⟩ := h
  obtain ⟨t, h4, h5⟩ := processCommands_rec (Rec.start (R := htmlRenderer gs png) (r := r)) h2
  simp only [Prod.mk.injEq] at h3
  obtain ⟨rfl, rfl, rfl⟩ := h3
  rw [hr.errors, hr.spans] at h4
  have hctx := processCommands_always (J := OnPaper) OnPaper.pen OnPaper.device OnPaper.apply (r := ⟨[], [], [], [], r.context⟩) ⟨hr.paper, by simp⟩ h4
  have hdress := Renderer.processCommands_dressed Outfit.ofLook Outfit.pen Outfit.new Outfit.caption Outfit.device
    (fun _ _ _ _ => Outfit.getDevice_sized) Outfit.apply (r := ⟨[], [], [], [], r.context⟩) ⟨hr.outfit, by simp, by simp⟩ h4
  have hhand := processCommands_handed (K := fun _ => True) (D := fun _ => True) (base := []) (fun _ _ => trivial) (fun _ _ _ => trivial)
    (fun _ _ _ _ _ _ _ _ => trivial) (fun _ _ => trivial) (r := ⟨[], [], [], [], r.context⟩) ⟨hr.range, trivial, [], rfl, by simp⟩ h4
  have hrec : render recorder ext ⟨[], [], [], [], r.context⟩ bytes = .ok (t.outputBuffer, t.errorBuffer, { t with outputBuffer := [], errorBuffer := [] }) := by
    simp only [render, bind_ok, pure_ok]
    exact ⟨cmds, h1, t, h4, rfl⟩
  obtain ⟨c1, calls, hnl, ec⟩ := first_calls_from hrec
  dsimp only at ec
  have hpos : ∀ x ∈ t.child, Positioned x.2 := by
    obtain ⟨calls, e, hc⟩ := hhand.calls
    intro x hx
    rw [show t.child = _ from e, List.nil_append] at hx
    exact (hc x hx).positioned
  have hcalls := h5.calls
  rw [hr.outputs] at hcalls
  have h5c := h5.context
  have hcalm : r1.child.debug = {} := (web_calm hcalls).trans hr.calm
  refine ⟨⟨hcalm, by rw [← h5c]; exact hctx.1, by rw [← h5c]; exact hdress.context, by rw [← h5c]; exact hhand.fits, rfl, rfl, hleft⟩, _, _, _, hrec, h5c, ?_⟩
  intro hb hn
  have hcall : ∀ x ∈ t.child, WebCall B x := by
    intro x hx
    refine ⟨hctx.2 x hx, ?_, hdress.calls x hx, ?_, fun e => hb ⟨x, hx, e⟩, ?_⟩
    · exact inRange_of (hpos x hx) (hdress.calls x hx)
    · have hp := hpos x hx
      obtain ⟨c, k⟩ := x
      intro s hs
      cases k
      case text l o m j =>
        obtain ⟨d, e, _⟩ := hp s hs
        exact ⟨d, e⟩
      all_goals cases hs
    · intro hm th ht
      cases th with
      | line l =>
        intro p hp hb
        refine hn (.put false (.line l)) (List.mem_flatMap.2 ⟨x, hx, ?_⟩) (List.mem_flatMap.2 ⟨p, hp, hb⟩)
        obtain ⟨c, k⟩ := x
        dsimp only at hm
        cases k <;> simp only [callThings, List.not_mem_nil] at ht <;>
          (simp only [callActs, hm]; exact List.mem_map.2 ⟨_, ht, rfl⟩)
      | box => trivial
      | picture => trivial
  unfold webSheets
  rw [← web_steps]
  dsimp only
  rw [ec] at hcalls hcall ⊢
  simp only [replay, bind_ok, Call.perform, htmlRenderer, ok_ok] at hcalls
  obtain ⟨s1, ⟨_, rfl, rfl⟩, s2, ⟨s3, e3, rfl⟩, a2⟩ := hcalls
  have hat := WebAt.begin (png := png) (B := B) (outs := []) (done := []) hr.calm .nil (hcall (c1, .beginRender) (by simp)).paper e3
  have := hat.replay hpng (xs := calls) (by simp [NoBrace]) (fun x hx => hcall x (by simp [hx])) a2
  rw [List.foldl_cons, List.foldl_cons, begin_web]
  exact this.done

/-- C88, C86. However many jobs are rendered one after the other with an HTML renderer, the documents are, one for one, the web pages that the calls of
the jobs give; every job begins with a new document and goes on with the settings and the position that the job before it left. -/
theorem C88_web_jobs : ∃ head : Str, ∀ (gs : Canvas.Glyphs) (png : Png) (_ : ∀ w h b, '{' ∉ png w h b) (ext : Ext) (jobs : List (List Byte))
    (docs : List Str), Renderer.webJobs gs png ext jobs (Renderer.new HtmlRenderer.new) = .ok docs →
    ∃ calls, Spec.jobCalls ext jobs Context.new = .ok calls ∧
      ((∀ l ∈ calls, ∀ a ∈ l.flatMap fun x => callActs x, '{' ∉ a.paperText) →
        List.Forall₂ (IsWebPage png (∃ l ∈ calls, ∃ x ∈ l, x.2 = .graphics []) head) docs (calls.flatMap fun l => webSheets gs (l.flatMap fun x => callActs x))) := by
  refine ⟨documentHead, ?_⟩
  intro gs png hpng ext jobs docs h
  suffices H : ∀ (B : Prop) (r : Renderer HtmlRenderer Str) (docs : List Str), WebResting r → Renderer.webJobs gs png ext jobs r = .ok docs →
      ∃ calls, Spec.jobCalls ext jobs r.context = .ok calls ∧
        (((∃ l ∈ calls, ∃ x ∈ l, x.2 = .graphics []) → B) → (∀ l ∈ calls, ∀ a ∈ l.flatMap fun x => callActs x, '{' ∉ a.paperText) →
          List.Forall₂ (IsWebPage png B documentHead) docs (calls.flatMap fun l => webSheets gs (l.flatMap fun x => callActs x))) by
    obtain ⟨calls, e, _⟩ := H True _ _ WebResting.new h
    obtain ⟨calls', e', k⟩ := H (∃ l ∈ calls, ∃ x ∈ l, x.2 = .graphics []) _ _ WebResting.new h
    obtain rfl : calls = calls' := Except.ok.inj (e.symm.trans e')
    exact ⟨calls, e, k id⟩
  clear h docs
  induction jobs with
  | nil => intro B r docs _ h; simp only [Renderer.webJobs, ok_ok] at h; subst h; exact ⟨[], rfl, fun _ _ => .nil⟩
  | cons b bs ih =>
    intro B r docs hr h
    simp only [Renderer.webJobs, bind_ok, pure_ok] at h
    obtain ⟨⟨outs, errs, r'⟩, h1, more, h2, rfl⟩ := h
    obtain ⟨hr', u, e, t, a1, a2, a3⟩ := hr.job (B := B) hpng h1
    obtain ⟨calls, b1, b2⟩ := ih B r' more hr' h2
    refine ⟨t.child :: calls, ?_, ?_⟩
    · simp only [Spec.jobCalls, bind_ok, ok_ok]
      exact ⟨_, a1, calls, by rw [a2]; exact b1, rfl⟩
    · intro hb hn
      rw [List.flatMap_cons]
      refine List.rel_append (a3 (fun ⟨x, hx, e⟩ => hb ⟨_, by simp, x, hx, e⟩) (hn _ (by simp))) (b2 ?_ fun l hl => hn l (by simp [hl]))
      rintro ⟨l, hl, x, hx, e⟩
      exact hb ⟨l, by simp [hl], x, hx, e⟩

/-- Hypotheses met: two jobs, "A" in bold and "B", give two documents; the second is bold as well, and begins below where the first ended. -/
example : ((Renderer.webJobs dotty noPng noExt [[27, 69, 1, 65], [66]] (Renderer.new HtmlRenderer.new)).toOption.map (·.length)) = some 2 ∧
    ((Spec.jobCalls noExt [[27, 69, 1, 65], [66]] Context.new).toOption.map fun calls =>
      (calls.flatMap fun l => webSheets dotty (l.flatMap fun x => callActs x)).map fun d => (d.shown.map Shown.outline, d.onPage, d.y)) =
      some [([("space", 0, 108), ("line", 0, 108)], false, 108), ([("space", 0, 156), ("line", 0, 156)], false, 156)] := by
  refine ⟨?_, ?_⟩ <;> decide +kernel

/-- A web page of a later job differs from that of the same job alone, even if the job begins with `ESC @` and no job uses page mode: the space at the
top grows with what has been printed before ("A" with a line feed, then `ESC @`, "B"). -/
theorem C88_web_space_stays : ∃ first before after : Str,
    (Renderer.webJobs dotty noPng noExt [[65, 10], [27, 64, 66]] (Renderer.new HtmlRenderer.new)).toOption =
      some [first, before ++ "height: 180px".toList ++ after] ∧
    (Renderer.webJobs dotty noPng noExt [[27, 64, 66]] (Renderer.new HtmlRenderer.new)).toOption = some [before ++ "height: 108px".toList ++ after] :=
  ⟨documentHead ++ ("\"width: 649px; padding-left: 20px; padding-right: 20px; padding-bottom: 0px;\"><article><p style='height: 108px; margin-top: 0px'></p>" ++
      "<p style='height: 24px; margin-top: 0px'><span style='left: 0px; top: 0px' class=''>A</span></p></article></section></main>\n</body>\n</html>").toList,
    documentHead ++ "\"width: 649px; padding-left: 20px; padding-right: 20px; padding-bottom: 0px;\"><article><p style='".toList,
    ("; margin-top: 0px'></p><p style='height: 24px; margin-top: 0px'><span style='left: 0px; top: 0px' class=''>B</span></p></article>" ++
      "</section></main>\n</body>\n</html>").toList,
    by decide +kernel, by decide +kernel⟩

end Thermal
