import Verif.Model.Html
import Verif.Spec.Html
import Verif.Proofs.Pen
import Mathlib.Data.List.Forall2
/-
C63, C64: the layout of HTML documents.
-/
namespace Thermal
open Html Spec

theorem num_inDecimal (n : Nat) : num n = inDecimal n := by
  unfold num inDecimal
  simp [toString, Nat.repr]

namespace HtmlRenderer

theorem rowHtml_block (h m : Nat) (s : Str) : rowHtml h m s = (⟨m, h, s⟩ : Block).html := by
  unfold rowHtml Block.html lit
  rw [num_inDecimal, num_inDecimal]

/-- html_renderer/mod.rs:82-91: rows pushed one after the other. -/
def pushRows : List Row → HtmlRenderer → Rs HtmlRenderer
  | [], r => .ok r
  | row :: rows, r => do pushRows rows (← r.pushRow row)

theorem pushRow_ok {r r' : HtmlRenderer} {row : Row} (h : r.pushRow row = .ok r') :
    r'.content = r.content ++ [(⟨row.y - r.lastY, row.height, row.content⟩ : Block).html] ∧ r'.lastY = row.y + row.height ∧
      r'.page = r.page := by
  simp only [pushRow, bind_ok, pure_ok, addU32_ok] at h
  obtain ⟨_, ⟨_, rfl⟩, rfl⟩ := h
  exact ⟨by rw [rowHtml_block], rfl, rfl⟩

theorem pushRows_ok {rows : List Row} {r r' : HtmlRenderer} (h : pushRows rows r = .ok r') (sum : Nat) :
    ∃ bs : List Block, r'.content = r.content ++ bs.map Block.html ∧
      bs.map (fun b => (b.height, b.inner)) = rows.map (fun r => (r.height, r.content)) ∧
      tops (r.lastY + sum) bs = (rows.zip (overlaps r.lastY sum (rows.map fun r => (r.y, r.height)))).map (fun p => p.1.y + p.2) := by
  induction rows generalizing r sum with
  | nil => simp only [pushRows, ok_ok] at h; subst h; exact ⟨[], by simp [tops]⟩
  | cons row rows ih =>
    simp only [pushRows, bind_ok] at h
    obtain ⟨r1, h1, h2⟩ := h
    obtain ⟨e1, e2, _⟩ := pushRow_ok h1
    obtain ⟨bs, a, b, c⟩ := ih h2 (sum + (r.lastY - row.y))
    refine ⟨⟨row.y - r.lastY, row.height, row.content⟩ :: bs, ?_, ?_, ?_⟩
    · rw [a, e1]; simp
    · simp [b]
    · have hk : r.lastY + sum + (row.y - r.lastY) = row.y + (sum + (r.lastY - row.y)) := by omega
      simp only [tops, List.map_cons, overlaps, List.zip_cons_cons, hk, List.cons.injEq, true_and]
      rw [← e2, ← c]
      congr 1
      omega

end HtmlRenderer

open HtmlRenderer

theorem inOrder_overlaps {y : Nat} {rs : List (Nat × Nat)} (h : InOrder y rs) : overlaps y 0 rs = rs.map fun _ => 0 := by
  induction rs generalizing y with
  | nil => rfl
  | cons r rs ih =>
    have : y - r.1 = 0 := Nat.sub_eq_zero_of_le h.1
    simp only [overlaps, this, List.map_cons, Nat.zero_add, List.cons.injEq, true_and]
    exact ih h.2

/-- C63. The blocks of a document stand in the document in order with their heights, and a browser puts each of them at the `y`
of its row, shifted down by as much as the rows so far reach into the rows before them. -/
theorem C63_tops {c : Context} {r0 r r' : HtmlRenderer} {rows : List Row} (hb : r0.beginRender c = .ok r)
    (h : pushRows rows r = .ok r') :
    ∃ first : Block, ∃ bs : List Block, r'.content = (first :: bs).map Block.html ∧ first = ⟨0, c.getY, []⟩ ∧
      bs.map (fun b => (b.height, b.inner)) = rows.map (fun r => (r.height, r.content)) ∧
      tops 0 (first :: bs) =
        0 :: (rows.zip (overlaps c.getY 0 (rows.map fun r => (r.y, r.height)))).map (fun p => p.1.y + p.2) := by
  obtain ⟨e1, e2, _⟩ := pushRow_ok hb
  obtain ⟨bs, a, b, d⟩ := pushRows_ok h 0
  refine ⟨⟨0, c.getY, []⟩, bs, ?_, rfl, b, ?_⟩
  · rw [a, e1]; simp
  · have e2 : r.lastY = c.getY := by rw [e2]; simp
    rw [e2] at d
    simp only [tops, Nat.zero_add]
    rw [← d]; rfl

/-- C63. If the rows of a document come from top to bottom without overlapping, each is shown exactly at its `y`. -/
theorem C63_in_order {c : Context} {r0 r r' : HtmlRenderer} {rows : List Row} (hb : r0.beginRender c = .ok r)
    (h : pushRows rows r = .ok r') (ho : InOrder c.getY (rows.map fun r => (r.y, r.height))) :
    ∃ first : Block, ∃ bs : List Block, r'.content = (first :: bs).map Block.html ∧
      bs.map (fun b => (b.height, b.inner)) = rows.map (fun r => (r.height, r.content)) ∧
      tops 0 (first :: bs) = 0 :: rows.map (·.y) := by
  obtain ⟨first, bs, a, _, b, d⟩ := C63_tops hb h
  refine ⟨first, bs, a, b, ?_⟩
  rw [d, inOrder_overlaps ho]
  congr 1
  clear a b d ho h
  induction rows with
  | nil => rfl
  | cons r rs ih => simpa using ih

/-- Rows at 100 (24 high), 130 (60 high) and 200: shown at 100, 130 and 200. -/
example : ∃ r r', (HtmlRenderer.new).beginRender Context.new = .ok r ∧
    pushRows [⟨100, 24, lit "a"⟩, ⟨130, 60, lit "b"⟩, ⟨200, 24, lit "c"⟩] r = .ok r' ∧
    InOrder Context.new.getY [(100, 24), (130, 60), (200, 24)] ∧ r'.content.length = 4 := by
  refine ⟨_, _, rfl, rfl, ?_, ?_⟩ <;> decide +kernel

/-! ### C64 -/

theorem minCorner_le (gs : List Rectangle) (m : Nat × Nat) : (minCorner gs m).1 ≤ m.1 ∧ (minCorner gs m).2 ≤ m.2 ∧
    ∀ g ∈ gs, (minCorner gs m).1 ≤ g.x ∧ (minCorner gs m).2 ≤ g.y := by
  induction gs generalizing m with
  | nil => simp [minCorner]
  | cons g gs ih =>
    obtain ⟨a, b, c⟩ := ih (min m.1 g.x, min m.2 g.y)
    simp only [minCorner]
    dsimp only at a b
    refine ⟨by omega, by omega, ?_⟩
    intro x hx
    rcases List.mem_cons.1 hx with rfl | hx
    · omega
    · exact c x hx

theorem minCorner_attained (gs : List Rectangle) (m : Nat × Nat) :
    ((minCorner gs m).1 = m.1 ∨ ∃ g ∈ gs, g.x = (minCorner gs m).1) ∧ ((minCorner gs m).2 = m.2 ∨ ∃ g ∈ gs, g.y = (minCorner gs m).2) := by
  induction gs generalizing m with
  | nil => simp [minCorner]
  | cons g gs ih =>
    obtain ⟨a, b⟩ := ih (min m.1 g.x, min m.2 g.y)
    simp only [minCorner]
    dsimp only at a b
    constructor
    · rcases a with a | ⟨x, hx, a⟩
      · rw [a]
        rcases Nat.le_total m.1 g.x with h | h
        · exact .inl (Nat.min_eq_left h)
        · exact .inr ⟨g, by simp, (Nat.min_eq_right h).symm⟩
      · exact .inr ⟨x, by simp [hx], a⟩
    · rcases b with b | ⟨x, hx, b⟩
      · rw [b]
        rcases Nat.le_total m.2 g.y with h | h
        · exact .inl (Nat.min_eq_left h)
        · exact .inr ⟨g, by simp, (Nat.min_eq_right h).symm⟩
      · exact .inr ⟨x, by simp [hx], b⟩

theorem rectHtml_svg (r : Rectangle) : rectHtml r.w r.h r.x r.y = svgRect r := by
  unfold rectHtml svgRect lit
  rw [num_inDecimal, num_inDecimal, num_inDecimal, num_inDecimal]

theorem join_intercalate (sep : Str) (ss : List Str) : join sep ss = sep.intercalate ss := by
  induction ss with
  | nil => rfl
  | cons s ss ih =>
    cases ss with
    | nil => simp [join, List.intercalate, List.intersperse]
    | cons t ts =>
      simp only [join] at ih ⊢
      rw [ih]
      simp [List.intercalate, List.intersperse]

theorem svgRects_ok {m : Nat × Nat} {gs : List Rectangle} {s : Nat × Nat} {out : List Str} {w h svg}
    (he : svgRects m gs s out = .ok (w, h, svg)) :
    svg = out ++ gs.map (fun g => svgRect ⟨g.x - m.1, g.y - m.2, g.w, g.h⟩) ∧ s.1 ≤ w ∧ s.2 ≤ h ∧
      (∀ g ∈ gs, g.x - m.1 + g.w ≤ w ∧ g.y - m.2 + g.h ≤ h) ∧ (w = s.1 ∨ ∃ g ∈ gs, w = g.x - m.1 + g.w) ∧
      (h = s.2 ∨ ∃ g ∈ gs, h = g.y - m.2 + g.h) := by
  induction gs generalizing s out with
  | nil =>
    simp only [svgRects, ok_ok, Prod.mk.injEq] at he
    obtain ⟨rfl, rfl, rfl⟩ := he
    simp
  | cons g gs ih =>
    simp only [svgRects, bind_ok, addU32_ok] at he
    obtain ⟨a, ⟨_, rfl⟩, b, ⟨_, rfl⟩, he⟩ := he
    obtain ⟨h1, h2, h3, h4, h5, h6⟩ := ih he
    dsimp only at h2 h3 h5 h6
    refine ⟨?_, by clear h5 h6; omega, by clear h5 h6; omega, ?_, ?_, ?_⟩
    · rw [h1, List.map_cons, ← rectHtml_svg ⟨g.x - m.1, g.y - m.2, g.w, g.h⟩]; simp
    · intro x hx
      rcases List.mem_cons.1 hx with rfl | hx
      · clear h5 h6; omega
      · exact h4 x hx
    · rcases h5 with h5 | ⟨x, hx, h5⟩
      · rcases Nat.le_total s.1 (g.x - m.1 + g.w) with h' | h'
        · rw [Nat.max_eq_right h'] at h5; exact .inr ⟨g, by simp, h5⟩
        · rw [Nat.max_eq_left h'] at h5; exact .inl h5
      · exact .inr ⟨x, by simp [hx], h5⟩
    · rcases h6 with h6 | ⟨x, hx, h6⟩
      · rcases Nat.le_total s.2 (g.y - m.2 + g.h) with h' | h'
        · rw [Nat.max_eq_right h'] at h6; exact .inr ⟨g, by simp, h6⟩
        · rw [Nat.max_eq_left h'] at h6; exact .inl h6
      · exact .inr ⟨x, by simp [hx], h6⟩

/-- C64. The SVG picture made of rectangles contains each of them at its place and in its size, and is no larger than needed:
the picture starts at the smallest coordinates and ends where the last rectangle ends. -/
theorem C64_svg {gs : List Rectangle} (hne : gs ≠ []) (hu : ∀ g ∈ gs, g.x < U32 ∧ g.y < U32) {row : Row}
    (h : graphicsToSvg gs = .ok row) :
    ∃ left w rects, row.content = svg left w row.height rects ∧
      List.Forall₂ (fun (g r : Rectangle) => left + r.x = g.x ∧ row.y + r.y = g.y ∧ r.w = g.w ∧ r.h = g.h) gs rects ∧
      (∀ r ∈ rects, r.x + r.w ≤ w ∧ r.y + r.h ≤ row.height) ∧
      (∃ r ∈ rects, r.x = 0) ∧ (∃ r ∈ rects, r.y = 0) ∧ (w = 0 ∨ ∃ r ∈ rects, r.x + r.w = w) ∧
      (row.height = 0 ∨ ∃ r ∈ rects, r.y + r.h = row.height) := by
  unfold graphicsToSvg at h
  rw [if_neg hne] at h
  simp only [bind_ok, pure_ok] at h
  obtain ⟨⟨w, hh, sv⟩, h1, rfl⟩ := h
  obtain ⟨a1, _, _, a4, a5, a6⟩ := svgRects_ok h1
  obtain ⟨m1, m2, m3⟩ := minCorner_le gs (U32 - 1, U32 - 1)
  obtain ⟨n1, n2⟩ := minCorner_attained gs (U32 - 1, U32 - 1)
  generalize minCorner gs (U32 - 1, U32 - 1) = m at *
  dsimp only at *
  obtain ⟨g0, hg0⟩ := List.exists_mem_of_ne_nil gs hne
  have n1' : ∃ g ∈ gs, g.x = m.1 := by
    rcases n1 with n1 | n1
    · exact ⟨g0, hg0, by have := hu g0 hg0; have := m3 g0 hg0; omega⟩
    · exact n1
  have n2' : ∃ g ∈ gs, g.y = m.2 := by
    rcases n2 with n2 | n2
    · exact ⟨g0, hg0, by have := hu g0 hg0; have := m3 g0 hg0; omega⟩
    · exact n2
  refine ⟨m.1, w, gs.map (fun g => ⟨g.x - m.1, g.y - m.2, g.w, g.h⟩), ?_, ?_, ?_, ?_, ?_, ?_, ?_⟩
  · rw [a1]
    unfold svgHtml svg lit
    rw [num_inDecimal, num_inDecimal, num_inDecimal, join_intercalate, List.map_map]
    rfl
  · rw [List.forall₂_map_right_iff, List.forall₂_same]
    intro g hg
    have := m3 g hg
    dsimp only
    omega
  · intro r hr
    obtain ⟨g, hg, rfl⟩ := List.mem_map.1 hr
    exact a4 g hg
  · obtain ⟨g, hg, e⟩ := n1'
    exact ⟨_, List.mem_map.2 ⟨g, hg, rfl⟩, by dsimp only; omega⟩
  · obtain ⟨g, hg, e⟩ := n2'
    exact ⟨_, List.mem_map.2 ⟨g, hg, rfl⟩, by dsimp only; omega⟩
  · rcases a5 with a5 | ⟨g, hg, a5⟩
    · exact .inl a5
    · exact .inr ⟨_, List.mem_map.2 ⟨g, hg, rfl⟩, a5.symm⟩
  · rcases a6 with a6 | ⟨g, hg, a6⟩
    · exact .inl a6
    · exact .inr ⟨_, List.mem_map.2 ⟨g, hg, rfl⟩, a6.symm⟩

/-- Two bars. -/
example : graphicsToSvg [⟨30, 100, 2, 40⟩, ⟨36, 100, 4, 40⟩] = .ok ⟨100, 40, svg 30 10 40 [⟨0, 0, 2, 40⟩, ⟨6, 0, 4, 40⟩]⟩ := by
  decide +kernel

end Thermal
