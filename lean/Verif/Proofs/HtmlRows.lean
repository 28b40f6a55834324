import Verif.Proofs.Html
import Verif.Proofs.F32Places
/-
The rows of the HTML renderer against the calls they show.
-/
namespace Thermal
open Html Spec

theorem stretchClass_eq (a : Char) (n : Nat) : stretchClass a n = if 2 ≤ n ∧ n ≤ 8 then a :: inDecimal n else [] := by
  unfold stretchClass; rw [num_inDecimal]

theorem lit_ne {s : String} (h : s.toList ≠ []) : lit s ≠ [] := h

theorem colorToClass_eq (color : RGBA) (cs : RenderColors) (b : Bool) :
    (if colorToClass color cs b ≠ [] then [colorToClass color cs b] else []) = colourClass color cs b := by
  have l : ∀ s : String, s.toList ≠ [] → (if lit s ≠ [] then [lit s] else []) = [s.toList] := fun s h => if_pos h
  unfold colorToClass colourClass
  by_cases h1 : color = cs.color1
  · rw [if_pos h1, if_pos h1]; cases b
    · exact l _ (by decide +kernel)
    · rfl
  · rw [if_neg h1, if_neg h1]
    by_cases h2 : color = cs.color2
    · rw [if_pos h2, if_pos h2]; cases b <;> exact l _ (by decide +kernel)
    · rw [if_neg h2, if_neg h2]
      by_cases h3 : color = cs.color3
      · rw [if_pos h3, if_pos h3]; cases b <;> exact l _ (by decide +kernel)
      · rw [if_neg h3, if_neg h3]; cases b
        · rfl
        · exact l _ (by decide +kernel)

theorem twice_eq (n : Nat) (a b : Str) : (if n = 0 then [] else if n = 1 then [a] else [a, b]) =
    (if n > 0 then [a] else []) ++ (if n > 1 then [b] else []) := by
  rcases n with _ | _ | n
  · rfl
  · rfl
  · rw [if_neg (by omega), if_neg (by omega), if_pos (by omega), if_pos (by omega)]; rfl

theorem stretch_one (a : Char) (n : Nat) : (if stretchClass a n ≠ [] then [stretchClass a n] else []) =
    if 2 ≤ n ∧ n ≤ 8 then [a :: inDecimal n] else [] := by
  rw [stretchClass_eq]
  by_cases h : 2 ≤ n ∧ n ≤ 8
  · rw [if_pos h, if_pos h]; exact if_pos (by simp)
  · rw [if_neg h, if_neg h]; rfl

theorem stretch_any (a b : Char) (n m : Nat) (x : List Str) : (if stretchClass a n ≠ [] ∨ stretchClass b m ≠ [] then x else []) =
    if (2 ≤ n ∧ n ≤ 8) ∨ (2 ≤ m ∧ m ≤ 8) then x else [] := by
  have : (stretchClass a n ≠ [] ∨ stretchClass b m ≠ []) ↔ ((2 ≤ n ∧ n ≤ 8) ∨ (2 ≤ m ∧ m ≤ 8)) := by
    rw [stretchClass_eq, stretchClass_eq]
    constructor
    · rintro (h | h)
      · exact .inl (by by_contra hn; rw [if_neg hn] at h; exact h rfl)
      · exact .inr (by by_contra hn; rw [if_neg hn] at h; exact h rfl)
    · rintro (h | h)
      · exact .inl (by rw [if_pos h]; simp)
      · exact .inr (by rw [if_pos h]; simp)
  split
  · rw [if_pos (this.1 ‹_›)]
  · rw [if_neg (fun h => ‹¬ _› (this.2 h))]

theorem classList_eq (t : TextSpan) (cs : RenderColors) : classList t cs = classes t cs := by
  unfold classList classes
  dsimp only
  rw [colorToClass_eq, colorToClass_eq, stretch_one, stretch_one, stretch_any, twice_eq, twice_eq]
  unfold lit
  simp only [List.append_assoc]
  generalize t.font = f
  cases f <;> rfl

/-- A span of a line of height `mh`: the place is a `u32` value, the heights are those of characters. -/
structure InLine (mh : Nat) (s : TextSpan) : Prop where
  place : (s.dimensions.map (·.y)).getD 0 < U32
  line : mh ∈ F32.heights
  high : s.characterHeight ∈ F32.heights

theorem spanToHtml_ok {t : TextSpan} {xo mh : Nat} {cs : RenderColors} {y : Nat} {s : Str} (ht : InLine mh t) (h : spanToHtml t xo mh cs = .ok (y, s)) :
    y = (t.dimensions.map (·.y)).getD 0 ∧ s = spanTag xo mh cs t := by
  simp only [spanToHtml, bind_ok, pure_ok, addU32_ok, Prod.mk.injEq] at h
  obtain ⟨x, ⟨_, rfl⟩, rfl, rfl⟩ := h
  have e : spanCorner t = ((t.dimensions.map (·.x)).getD 0, (t.dimensions.map (·.y)).getD 0) := by
    unfold spanCorner; cases t.dimensions <;> rfl
  rw [e, classList_eq]
  refine ⟨rfl, ?_⟩
  unfold spanHtml spanTag lit
  rw [num_inDecimal, num_inDecimal, join_intercalate, F32.web_exact ht.line ht.high]

theorem smallest_cons (n : Nat) {ns : List Nat} (h : ns ≠ []) : smallest (n :: ns) = min n (smallest ns) := by
  cases ns with
  | nil => exact absurd rfl h
  | cons m ms => rfl

theorem spansLoop_ok {xo mh : Nat} {cs : RenderColors} {ts : List TextSpan} {hh y : Nat} {html : List Str} {row : Row}
    (hu : ∀ s ∈ ts, InLine mh s) (h : spansLoop xo mh cs ts hh y html = .ok row) :
    row.height = max hh (largest (ts.map (·.characterHeight))) ∧
      row.content = ['\n'].intercalate (html ++ ts.map (spanTag xo mh cs)) ∧
      row.y = if ts = [] then y else min y (smallest (ts.map fun s => (s.dimensions.map (·.y)).getD 0)) := by
  induction ts generalizing hh y html with
  | nil =>
    simp only [spansLoop, ok_ok] at h; subst h
    simp [largest, join_intercalate]
  | cons t ts ih =>
    simp only [spansLoop, bind_ok] at h
    obtain ⟨⟨ty, s⟩, h1, h2⟩ := h
    obtain ⟨rfl, rfl⟩ := spanToHtml_ok (hu t (by simp)) h1
    obtain ⟨a, b, c⟩ := ih (fun s hs => hu s (by simp [hs])) h2
    refine ⟨?_, ?_, ?_⟩
    · rw [a, List.map_cons, largest]; omega
    · rw [b]; simp
    · rw [c]
      rw [if_neg (List.cons_ne_nil t ts)]
      dsimp only
      by_cases ht : ts = []
      · rw [if_pos ht, ht]; rfl
      · rw [if_neg ht, List.map_cons, smallest_cons _ (by simpa using ht)]; omega

theorem smallest_le {ns : List Nat} {b : Nat} (h : ∀ n ∈ ns, n ≤ b) : smallest ns ≤ b := by
  induction ns with
  | nil => exact Nat.zero_le _
  | cons n ns ih =>
    by_cases hn : ns = []
    · subst hn; exact h n (by simp)
    · rw [smallest_cons _ hn]
      have := h n (by simp)
      omega

theorem spansToHtml_ok {xo mh : Nat} {cs : RenderColors} {ts : List TextSpan} {row : Row}
    (hu : ∀ s ∈ ts, InLine mh s) (h : spansToHtml ts xo mh cs = .ok row) :
    row.y = smallest (ts.map fun s => (s.dimensions.map (·.y)).getD 0) ∧ row.height = largest (ts.map (·.characterHeight)) ∧
      row.content = ['\n'].intercalate (ts.map (spanTag xo mh cs)) := by
  unfold spansToHtml at h
  by_cases ht : ts = []
  · rw [if_pos ht, ok_ok] at h; subst h; subst ht
    exact ⟨rfl, rfl, rfl⟩
  · rw [if_neg ht] at h
    obtain ⟨a, b, c⟩ := spansLoop_ok hu h
    refine ⟨?_, by rw [a]; omega, by simpa using b⟩
    rw [c, if_neg ht]
    have : smallest (ts.map fun s => (s.dimensions.map (·.y)).getD 0) ≤ U32 - 1 := smallest_le (by
      intro n hn
      obtain ⟨s, hs, rfl⟩ := List.mem_map.1 hn
      have := (hu s hs).place
      omega)
    omega

theorem rgba_eq (px : List RGBA) : rgbaBytes px = rgba px := rfl

theorem rgba_length (px : List RGBA) : (rgba px).length = px.length * 4 := by
  unfold rgba
  induction px with
  | nil => rfl
  | cons p px ih => simp [ih]; omega

theorem encodeImage_ok {png : Png} {i : Image} {row : Row} (h : encodeImage png i = .ok row) :
    row.y = i.y ∧ row.height = i.h ∧ row.content = imgTag i.x i.w (png i.w i.h (rgba i.pixels)) ∧ i.pixels.length = i.w * i.h := by
  unfold encodeImage at h
  split at h
  · cases h
  · split at h
    · cases h
    · rename_i hl
      rw [rgba_eq, rgba_length] at hl
      rw [ok_ok] at h; subst h
      refine ⟨rfl, rfl, ?_, by omega⟩
      dsimp only
      unfold imgTag lit
      rw [num_inDecimal, num_inDecimal, rgba_eq]

/-! ### The calls of a document -/

/-- Positions are `u32` values, heights are those of characters. -/
def Call.InRange : Call → Prop
  | .text l _ mh _ => ∀ s ∈ l, InLine mh s
  | .graphics gs => ∀ g ∈ gs, g.x < U32 ∧ g.y < U32
  | _ => True

/-- The rows pushed so far show the calls of the document so far. -/
def HtmlRenderer.Showing (png : Png) (h : HtmlRenderer) (sheet : List (Context × Call)) : Prop :=
  ∃ rows : List Row, List.Forall₂ (fun x (r : Row) => presents png x r.y r.height r.content) sheet rows ∧
    ∃ p : Canvas, HtmlRenderer.pushRows rows ⟨0, [], p, h.debug⟩ = .ok ⟨h.lastY, h.content, p, h.debug⟩

namespace HtmlRenderer

theorem pushRows_snoc {rows : List Row} {row : Row} {r r1 r2 : HtmlRenderer} (h1 : pushRows rows r = .ok r1) (h2 : pushRow r1 row = .ok r2) :
    pushRows (rows ++ [row]) r = .ok r2 := by
  induction rows generalizing r with
  | nil => simp only [pushRows, ok_ok] at h1; subst h1; simp only [List.nil_append, pushRows, h2]; rfl
  | cons a rows ih =>
    simp only [pushRows, bind_ok] at h1
    obtain ⟨q, e1, e2⟩ := h1
    simp only [List.cons_append, pushRows, e1]
    exact ih e2

theorem pushRow_page {row : Row} {h h' : HtmlRenderer} (e : pushRow h row = .ok h') (p : Canvas) (d : Debug) :
    pushRow ⟨h.lastY, h.content, p, d⟩ row = .ok ⟨h'.lastY, h'.content, p, d⟩ ∧ h'.debug = h.debug := by
  simp only [pushRow, bind_ok, pure_ok] at e ⊢
  obtain ⟨y, e1, rfl⟩ := e
  exact ⟨⟨y, e1, rfl⟩, rfl⟩

theorem Showing.push {png : Png} {h h' : HtmlRenderer} {sheet : List (Context × Call)} (hs : h.Showing png sheet) {x : Context × Call}
    {row : Row} (hx : presents png x row.y row.height row.content) (e : pushRow h row = .ok h') : h'.Showing png (sheet ++ [x]) := by
  obtain ⟨rows, a, p, b⟩ := hs
  obtain ⟨e1, e2⟩ := pushRow_page e p h.debug
  refine ⟨rows ++ [row], ?_, p, ?_⟩
  · exact List.rel_append a (List.Forall₂.cons hx List.Forall₂.nil)
  · rw [e2]; exact pushRows_snoc b e1

theorem Showing.page {png : Png} {h : HtmlRenderer} {sheet : List (Context × Call)} (hs : h.Showing png sheet) (p : Canvas) :
    ({ h with page := p } : HtmlRenderer).Showing png sheet := hs

theorem beginRender_showing {png : Png} {h h' : HtmlRenderer} {c : Context} (e : h.beginRender c = .ok h') :
    h'.Showing png [(c, .beginRender)] := by
  simp only [beginRender, pushRow, bind_ok, pure_ok] at e
  obtain ⟨y, e1, rfl⟩ := e
  refine ⟨[⟨0, c.getY, []⟩], ?_, Canvas.new 0, ?_⟩
  · exact List.Forall₂.cons ⟨rfl, rfl, rfl⟩ List.Forall₂.nil
  · simp only [pushRows, pushRow, bind_ok, pure_ok, ok_ok]
    refine ⟨_, ⟨y, e1, rfl⟩, ?_⟩
    simp

end HtmlRenderer

end Thermal
