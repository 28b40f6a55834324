import Verif.Props.ImageTotal
import Verif.Proofs.HtmlTotal
/-
C65 for the HTML renderer: streams for which a web page is made.
-/
namespace Thermal
open Renderer Spec

/-- C65, HTML: a stream that can be laid out, with every call within the limits of the HTML renderer (`WebWithin`), and in which no page is printed
that has no size, becomes a web page. -/
theorem C65_html (gs : Canvas.Glyphs) (png : Html.Png) (ext : Ext) (bytes : List Byte) (units errs t)
    (h : render recorder ext (Renderer.new []) bytes = .ok (units, errs, t)) (hw : ∀ x ∈ t.child, WebWithin x) (hz : PagesSized false (t.child.map (·.2))) :
    ∃ outs errs' r, render (htmlRenderer gs png) ext (Renderer.new (HtmlRenderer.new {})) bytes = .ok (outs, errs', r) := by
  have hdress := render_outfit h
  obtain ⟨⟨s', outs⟩, e1⟩ := HtmlRenderer.replay_safe (gs := gs) (png := png) (s := (HtmlRenderer.new {}, [])) (xs := t.child) HtmlRenderer.Safe.new
    (fun x hx => ⟨hw x hx, (hdress x hx).spans⟩) hz
  obtain ⟨errs', r, e2, _⟩ := C68_performed _ ext _ _ bytes units errs t outs h e1
  exact ⟨outs, errs', r, e2⟩

theorem Near.webWithin {n : Bool} {B : Nat} (hB : B + 262144 < U32) {x : Context × Call} (h : Near n B x.1 x.2) (hr : WebRoomy x) : WebWithin x := by
  obtain ⟨c, k⟩ := x
  have page : c.pageMode.enabled = true → Roomy (c, k) → Within (c, k) := fun _ hr => h.within hr
  have hd : c.pageMode.enabled = true → depth c = widest := fun h => by unfold depth; rw [h]; rfl
  unfold Near at h
  unfold WebRoomy at hr
  unfold WebWithin
  unfold Roomy at page
  cases k <;> dsimp only at h hr page ⊢
  case beginRender =>
    have h1 := h.y
    have h2 := h.pageY
    unfold Context.getY
    split <;> omega
  case text l o m j =>
    by_cases hc : c.pageMode.enabled = true
    · rw [if_pos hc]; exact page hc (by rw [hd hc]; exact hr hc)
    · rw [if_neg hc]
      obtain ⟨h0, h1, ⟨y, ⟨h2, _⟩, h3⟩, h4, rfl⟩ := h
      have hy := h0.yle
      refine ⟨by simp only [U32]; omega, ?_⟩
      intro s hs
      refine ⟨Nat.le_trans (h1.spans s hs).height (by decide), ?_⟩
      intro d hd'
      obtain ⟨d1, e1, e2, e3, e4⟩ := h2 s hs
      rw [hd'] at e1
      obtain rfl : d = d1 := Option.some.inj e1
      obtain ⟨d2, e5, e6⟩ := h1.placed s hs
      rw [hd'] at e5
      obtain rfl : d = d2 := Option.some.inj e5
      have h6 := h1.width
      have hw : spanW s ≤ lineW l := spanW_le hs
      unfold spanW at hw
      constructor
      · simp only [U32]; omega
      · omega
  case graphics rs =>
    by_cases hc : c.pageMode.enabled = true
    · rw [if_pos hc]; exact page hc (by rw [hd hc]; exact hr hc)
    · rw [if_neg hc]
      intro g hg
      obtain ⟨h1, h2, h3, h4⟩ := h.2 g hg
      have := h.1
      exact ⟨h1, by omega⟩
  case image i =>
    by_cases hc : c.pageMode.enabled = true
    · rw [if_pos hc] at hr ⊢; exact page hc (by rw [hd hc]; exact hr)
    · rw [if_neg hc] at hr ⊢
      obtain ⟨h0, h1, h2, h3, h4, h5⟩ := h
      have := h0.yle
      exact ⟨h1, hr.1, hr.2, by omega⟩
  case renderPage =>
    have := h.y
    have e : widest = 65535 := rfl
    omega
  all_goals exact hr

/-- C65, HTML: a stream with parameters within what the program handles (`Tame`) becomes a web page if its images are not empty, no page is printed
that has no size, and there is room on the pages for what is put on them.  On the paper there is always room. -/
theorem C65_html_partial (gs : Canvas.Glyphs) (png : Html.Png) {ext : Ext} (hx : ExtOk ext) {n : Bool} {bytes : List Byte} {cmds : List Command}
    (hp : parseEscPos bytes = .ok cmds) (ht : ∀ c ∈ cmds, Tame n c) (hB : (cmds.map (reach n)).sum + 360448 < 2147483648)
    (hr : ∀ units errs t, render recorder ext (Renderer.new []) bytes = .ok (units, errs, t) →
      (∀ x ∈ t.child, WebRoomy x) ∧ PagesSized false (t.child.map (·.2))) :
    ∃ outs errs r, render (htmlRenderer gs png) ext (Renderer.new (HtmlRenderer.new {})) bytes = .ok (outs, errs, r) := by
  obtain ⟨units, errs, t, h⟩ := C65_one_partial total_recorder hx ([] : List (Context × Call)) hp ht hB
  have hn := recorded_near hx hp ht hB h
  obtain ⟨h1, h2⟩ := hr units errs t h
  exact C65_html gs png ext bytes units errs t h (fun x hxm => (hn x hxm).webWithin (by simp only [U32]; omega) (h1 x hxm)) h2

theorem pagesSized_of {b : Bool} {ks : List Call} (h : ∀ k ∈ ks, k ≠ .renderPage) : PagesSized b ks := by
  induction ks generalizing b with
  | nil => trivial
  | cons k ks ih => exact ⟨fun e => absurd e (h k (by simp)), ih fun x hx => h x (by simp [hx])⟩

/-- C65, HTML: every stream of only text, tabs, line ends, text styles and unknown commands, however malformed, below 8 million bytes becomes a web page. -/
theorem C65_html_text (gs : Canvas.Glyphs) (png : Html.Png) {ext : Ext} (hx : ExtOk ext) {bytes : List Byte} {cmds : List Command}
    (hp : parseEscPos bytes = .ok cmds) (ht : ∀ c ∈ cmds, ¬ c.isBegin → ¬ c.isEnd → c.textual) (hB : bytes.length ≤ 8000000) :
    ∃ outs errs r, render (htmlRenderer gs png) ext (Renderer.new (HtmlRenderer.new {})) bytes = .ok (outs, errs, r) := by
  obtain ⟨h1, h2⟩ := textual_reach hp ht
  have hfr := textual_plain hp ht
  refine C65_html_partial gs png hx hp h2 (by omega) ?_
  intro units errs t h
  obtain ⟨c0, c1, c2, c3, calls, ec, hc⟩ := one_sheet hp (fun c hc => ⟨(hfr c hc).1, (hfr c hc).2.1⟩) h
  have hw : ∀ x ∈ t.child, Wordy x := by
    have a1 := h
    simp only [render, bind_ok, pure_ok] at a1
    obtain ⟨cs, b1, r1, b2, b3⟩ := a1
    simp only [Prod.mk.injEq] at b3
    obtain ⟨rfl, rfl, rfl⟩ := b3
    rw [hp, ok_ok] at b1
    subst b1
    have hr := processCommands_wordy b2 (fun c hc => (hfr c hc).2.2) (by simp [Renderer.new])
    exact hr
  have hcase : ∀ x ∈ t.child, x.2 = .beginRender ∨ (∃ d, x.2 = .device d) ∨ x.2 = .endRender ∨ Fair Standard Plain x := by
    intro x hxm
    rw [ec] at hxm
    simp only [List.cons_append, List.mem_cons, List.mem_append, List.not_mem_nil, or_false] at hxm
    rcases hxm with rfl | rfl | hxm | rfl | rfl
    · exact .inr (.inl ⟨_, rfl⟩)
    · exact .inl rfl
    · exact .inr (.inr (.inr (hc x hxm)))
    · exact .inr (.inl ⟨_, rfl⟩)
    · exact .inr (.inr (.inl rfl))
  constructor
  · intro x hxm
    have hwx := hw x hxm
    obtain ⟨c, k⟩ := x
    unfold WebRoomy
    cases k <;> dsimp only
    case text =>
      rcases hcase _ hxm with e | ⟨d, e⟩ | e | hf
      · cases e
      · cases e
      · cases e
      · intro e; rw [show c.pageMode.enabled = false from hf.context] at e; cases e
    case graphics =>
      rcases hcase _ hxm with e | ⟨d, e⟩ | e | hf
      · cases e
      · cases e
      · cases e
      · intro e; rw [show c.pageMode.enabled = false from hf.context] at e; cases e
    case image i => exact absurd rfl (hwx.1 i)
    case pageAreaChanged k w h => exact absurd rfl (hwx.2 k w h)
  · refine pagesSized_of ?_
    intro k hk e
    obtain ⟨x, hxm, rfl⟩ := List.mem_map.1 hk
    rcases hcase _ hxm with h1 | ⟨d, h1⟩ | h1 | hf
    · rw [e] at h1; cases h1
    · rw [e] at h1; cases h1
    · rw [e] at h1; cases h1
    · obtain ⟨c, k⟩ := x
      dsimp only at e; subst e
      exact absurd rfl (hf.pages rfl).2.2.2

/-- C65_html_text, a concrete print job with missing and absurd parameters. -/
example : ∃ cmds, parseEscPos [72, 105, 27, 1, 29, 33, 255, 72, 105, 9, 13, 10, 27, 116, 200, 128, 27, 82, 99, 35, 29, 40, 78, 255, 255, 1, 27, 77] = .ok cmds ∧
    (∀ c ∈ cmds, ¬ c.isBegin → ¬ c.isEnd → c.textual) ∧ ([72, 105, 27, 1, 29, 33, 255, 72, 105, 9, 13, 10, 27, 116, 200, 128, 27, 82, 99, 35, 29, 40, 78, 255, 255, 1, 27, 77] : List Byte).length ≤ 8000000 := by
  refine ⟨_, rfl, ?_⟩; decide +kernel

instance (x : Context × Call) : Decidable (WebRoomy x) := by
  unfold WebRoomy
  split <;> infer_instance

instance PagesSized.dec : (b : Bool) → (ks : List Call) → Decidable (PagesSized b ks)
  | _, [] => .isTrue trivial
  | b, k :: ks => @instDecidableAnd (k = .renderPage → b = true) _ (inferInstanceAs (Decidable (k = .renderPage → b = true))) (PagesSized.dec (pageSized b k) ks)

/-- C65_html_partial, a page with text and an image, then centred text and a bit image on the paper. -/
example : ∃ cmds units errs t, parseEscPos ([27, 76, 27, 87, 0, 0, 0, 0, 0, 1, 0, 1, 72, 105, 10, 29, 118, 48, 0, 1, 0, 2, 0, 255, 129, 12] ++ [27, 97, 1, 72, 105, 10, 27, 42, 33, 1, 0, 255, 129, 255]) = .ok cmds ∧
    (∀ c ∈ cmds, Tame false c) ∧ (cmds.map (reach false)).sum + 360448 < 2147483648 ∧
    render recorder noExt (Renderer.new []) ([27, 76, 27, 87, 0, 0, 0, 0, 0, 1, 0, 1, 72, 105, 10, 29, 118, 48, 0, 1, 0, 2, 0, 255, 129, 12] ++ [27, 97, 1, 72, 105, 10, 27, 42, 33, 1, 0, 255, 129, 255]) = .ok (units, errs, t) ∧
    (∀ x ∈ t.child, WebRoomy x) ∧ PagesSized false (t.child.map (·.2)) ∧ t.child.length = 17 := by
  refine ⟨_, _, _, _, rfl, ?_, ?_, rfl, ?_⟩ <;> decide +kernel

/-- The HTML renderer panics on this print job. -/
def HtmlPanics (bytes : List Byte) : Bool :=
  match render (htmlRenderer dotty fun _ _ _ => []) noExt (Renderer.new (HtmlRenderer.new {})) bytes with
  | .error _ => true
  | .ok _ => false

/-- C65. A page that is printed without an area set before, and a raster image without dots, both of which the layout accepts, panic in the HTML
renderer. -/
theorem C65_html_panics :
    (HtmlPanics [27, 76, 72, 105, 12] = true ∧ Panics [27, 76, 72, 105, 12] = false) ∧
    (HtmlPanics [29, 118, 48, 0, 0, 0, 0, 0] = true ∧ Panics [29, 118, 48, 0, 0, 0, 0, 0] = false) := by
  decide +kernel
end Thermal
