import Verif.Proofs.HtmlRows
import Verif.Spec.Css
/-
The cascade, and the classes of a piece of text.
-/
namespace Thermal
open Html Spec

/-! ### The cascade -/

/-- Only rules that mention the property count. -/
theorem cascade_filter (rules : List CssRule) (tag : Str) (has : Str → Bool) (prop : Str) :
    cascade rules tag has prop = cascade (rules.filter fun r => (r.value prop).isSome) tag has prop := by
  unfold cascade
  generalize (none : Option (Nat × Str)) = b
  induction rules generalizing b with
  | nil => rfl
  | cons r rs ih =>
    rw [List.foldl_cons]
    rcases hv : r.value prop with _ | v
    · rw [List.filter_cons_of_neg (by simp [hv])]; exact ih _
    · rw [List.filter_cons_of_pos (by simp [hv]), List.foldl_cons, ih, hv]

/-- Only the classes in the rules count. -/
theorem cascade_congr {rules : List CssRule} {tag : Str} {has has' : Str → Bool} {prop : Str}
    (h : ∀ k ∈ rules.flatMap (·.classes), has k = has' k) : cascade rules tag has prop = cascade rules tag has' prop := by
  unfold cascade
  generalize (none : Option (Nat × Str)) = b
  induction rules generalizing b with
  | nil => rfl
  | cons r rs ih =>
    have e : r.applies tag has = r.applies tag has' := by
      unfold CssRule.applies
      congr 1
      have hk : ∀ k ∈ r.classes, has k = has' k := fun k hk => h k (by simp [hk])
      clear h ih
      generalize r.classes = ks at hk
      induction ks with
      | nil => rfl
      | cons k ks ih =>
        rw [List.all_cons, List.all_cons, hk k (by simp), ih fun x hx => hk x (by simp [hx])]
    rw [List.foldl_cons, List.foldl_cons, e]
    exact ih (fun k hk => h k (by simp only [List.flatMap_cons, List.mem_append]; exact .inr hk)) _

/-! ### Documents -/

theorem upTo_append {p a : Str} (b : Str) (h : p <:+: a) (hp : p ≠ []) : upTo p (a ++ b) = upTo p a := by
  induction a with
  | nil => exact absurd (List.infix_nil.1 h) hp
  | cons c s ih =>
    rw [List.cons_append]
    unfold upTo
    by_cases h1 : p <+: c :: s
    · have h1' : p <+: c :: (s ++ b) := h1.trans (List.prefix_append (c :: s) b)
      rw [if_pos (List.isPrefixOf_iff_prefix.2 h1'), if_pos (List.isPrefixOf_iff_prefix.2 h1)]
    · have h2 : p <:+: s := by
        rcases List.infix_cons_iff.1 h with h | h
        · exact absurd h h1
        · exact h
      have h3 : ¬ p <+: c :: (s ++ b) := by
        intro h3
        exact h1 (List.prefix_of_prefix_length_le h3 (List.prefix_append (c :: s) b) (by have := h2.length_le; simp; omega))
      rw [if_neg (fun h => h3 (List.isPrefixOf_iff_prefix.1 h)), if_neg (fun h => h1 (List.isPrefixOf_iff_prefix.1 h)), ih h2]

theorem after_append {p a : Str} (b : Str) (h : p <:+: a) (hp : p ≠ []) : after p (a ++ b) = after p a ++ b := by
  induction a with
  | nil => exact absurd (List.infix_nil.1 h) hp
  | cons c s ih =>
    rw [List.cons_append]
    unfold after
    by_cases h1 : p <+: c :: s
    · have h1' : p <+: c :: (s ++ b) := h1.trans (List.prefix_append (c :: s) b)
      rw [if_pos (List.isPrefixOf_iff_prefix.2 h1'), if_pos (List.isPrefixOf_iff_prefix.2 h1)]
      rw [← List.cons_append, List.drop_append_of_le_length h1.length_le]
    · have h2 : p <:+: s := by
        rcases List.infix_cons_iff.1 h with h | h
        · exact absurd h h1
        · exact h
      have h3 : ¬ p <+: c :: (s ++ b) := by
        intro h3
        exact h1 (List.prefix_of_prefix_length_le h3 (List.prefix_append (c :: s) b) (by have := h2.length_le; simp; omega))
      rw [if_neg (fun h => h3 (List.isPrefixOf_iff_prefix.1 h)), if_neg (fun h => h1 (List.isPrefixOf_iff_prefix.1 h)), ih h2]

theorem infix_at {p a : Str} (n : Nat) (h : (a.drop n).take p.length = p) : p <:+: a :=
  ⟨a.take n, (a.drop n).drop p.length, by
    conv => lhs; lhs; rhs; rw [← h]
    rw [List.append_assoc, List.take_append_drop, List.take_append_drop]⟩

/-- The style sheet of a document is that of its head. -/
theorem styleSheet_head (b : Str) : styleSheet (documentHead ++ b) = styleSheet documentHead := by
  unfold styleSheet
  have h1 : "<style>".toList <:+: documentHead := infix_at 99 (by decide +kernel)
  rw [after_append b h1 (by decide), upTo_append]
  · exact infix_at 2547 (by decide +kernel)
  · decide

/-- The rules in the documents' style sheet. -/
def htmlRules : List CssRule := [
  ⟨"body".toList, [], [("margin".toList, "0".toList), ("background".toList, "#f7f5f0".toList)]⟩,
  ⟨"section".toList, [], [("background".toList, "#FFFFFFFF".toList), ("font-family".toList, "monospace".toList), ("font-size".toList, "21.8px".toList), ("line-height".toList, "24px".toList), ("margin".toList, "20px auto 20px auto".toList), ("text-align".toList, "left".toList), ("box-sizing".toList, "border-box".toList), ("transform".toList, "scale(0.7)".toList), ("transform-origin".toList, "top".toList)]⟩,
  ⟨"section".toList, [], [("margin".toList, "0 auto".toList)]⟩,
  ⟨"p".toList, [], [("margin".toList, "0".toList), ("padding".toList, "0".toList), ("position".toList, "relative".toList)]⟩,
  ⟨"span".toList, [], [("display".toList, "block".toList), ("vertical-align".toList, "text-bottom".toList), ("white-space".toList, "pre".toList), ("color".toList, "#000000FF".toList), ("background-color".toList, "transparent".toList)]⟩,
  ⟨[], ["fg_0".toList], [("color".toList, "#FFFFFFFF".toList)]⟩,
  ⟨[], ["fg_1".toList], [("color".toList, "#000000FF".toList)]⟩,
  ⟨[], ["fg_2".toList], [("color".toList, "#9E1616FF".toList)]⟩,
  ⟨[], ["fg_3".toList], [("color".toList, "#1B39A9FF".toList)]⟩,
  ⟨[], ["bg_0".toList], [("background-color".toList, "#FFFFFFFF".toList)]⟩,
  ⟨[], ["bg_1".toList], [("background-color".toList, "#000000FF".toList)]⟩,
  ⟨[], ["bg_2".toList], [("background-color".toList, "#9E1616FF".toList)]⟩,
  ⟨[], ["bg_3".toList], [("background-color".toList, "#1B39A9FF".toList)]⟩,
  ⟨[], ["fb".toList], [("font-size".toList, ".8em".toList), ("line-height".toList, ".8".toList)]⟩,
  ⟨[], ["fc".toList], [("font-size".toList, ".65em".toList), ("line-height".toList, ".65".toList)]⟩,
  ⟨[], ["b".toList], [("font-weight".toList, "bold".toList)]⟩,
  ⟨[], ["i".toList], [("font-style".toList, "italic".toList)]⟩,
  ⟨[], ["u".toList], [("text-decoration".toList, "underline".toList)]⟩,
  ⟨[], ["s".toList], [("text-decoration".toList, "line-through".toList)]⟩,
  ⟨[], ["s".toList], [("text-decoration".toList, "line-through".toList)]⟩,
  ⟨[], ["sd".toList], [("text-decoration".toList, "line-through".toList)]⟩,
  ⟨[], ["upd".toList], [("transform".toList, "scale(1, -1)".toList)]⟩,
  ⟨[], ["str".toList], [("transform-origin".toList, "top left".toList)]⟩,
  ⟨[], ["w2".toList], [("transform".toList, "scaleX(2)".toList)]⟩,
  ⟨[], ["h2".toList], [("transform".toList, "scaleY(2)".toList)]⟩,
  ⟨[], ["w2".toList, "h2".toList], [("transform".toList, "scale(2)".toList)]⟩,
  ⟨[], ["w3".toList], [("transform".toList, "scaleX(3)".toList)]⟩,
  ⟨[], ["h3".toList], [("transform".toList, "scaleY(3)".toList)]⟩,
  ⟨[], ["w3".toList, "h3".toList], [("transform".toList, "scale(3)".toList)]⟩,
  ⟨[], ["w4".toList], [("transform".toList, "scaleX(4)".toList)]⟩,
  ⟨[], ["h4".toList], [("transform".toList, "scaleY(4)".toList)]⟩,
  ⟨[], ["w4".toList, "h4".toList], [("transform".toList, "scale(4)".toList)]⟩,
  ⟨[], ["w5".toList], [("transform".toList, "scaleX(5)".toList)]⟩,
  ⟨[], ["h5".toList], [("transform".toList, "scaleY(5)".toList)]⟩,
  ⟨[], ["w5".toList, "h5".toList], [("transform".toList, "scale(5)".toList)]⟩,
  ⟨[], ["w6".toList], [("transform".toList, "scaleX(6)".toList)]⟩,
  ⟨[], ["h6".toList], [("transform".toList, "scaleY(6)".toList)]⟩,
  ⟨[], ["w6".toList, "h6".toList], [("transform".toList, "scale(6)".toList)]⟩,
  ⟨[], ["w7".toList], [("transform".toList, "scaleX(7)".toList)]⟩,
  ⟨[], ["h7".toList], [("transform".toList, "scaleY(7)".toList)]⟩,
  ⟨[], ["w7".toList, "h7".toList], [("transform".toList, "scale(7)".toList)]⟩,
  ⟨[], ["w8".toList], [("transform".toList, "scaleX(8)".toList)]⟩,
  ⟨[], ["h8".toList], [("transform".toList, "scaleY(8)".toList)]⟩,
  ⟨[], ["w8".toList, "h8".toList], [("transform".toList, "scale(8)".toList)]⟩,
  ⟨"img".toList, [], [("display".toList, "block".toList)]⟩]

theorem styleSheet_rules : styleSheet documentHead = htmlRules := by decide +kernel

/-! ### Classes -/

theorem mem_ite {c : Prop} [Decidable c] {k x : Str} : k ∈ (if c then [x] else []) ↔ c ∧ k = x := by
  split <;> simp_all

theorem mem_twice {n : Nat} {k a b : Str} : k ∈ (if n = 0 then [] else if n = 1 then [a] else [a, b]) ↔ (0 < n ∧ k = a) ∨ (1 < n ∧ k = b) := by
  rcases n with _ | _ | n
  · simp
  · simp
  · simp

theorem mem_font {f : Font} {k a b : Str} : k ∈ (if f = .B then [a] else if f = .C then [b] else []) ↔ (f = .B ∧ k = a) ∨ (f = .C ∧ k = b) := by
  cases f <;> simp

theorem mem_classes {t : TextSpan} {cs : RenderColors} {k : Str} : k ∈ classes t cs ↔
    (t.bold ∧ k = "b".toList) ∨ (t.italic ∧ k = "i".toList) ∨ (0 < t.strikethrough ∧ k = "s".toList) ∨ (1 < t.strikethrough ∧ k = "sd".toList) ∨
    ((2 ≤ t.stretchWidth ∧ t.stretchWidth ≤ 8) ∧ k = 'w' :: inDecimal t.stretchWidth) ∨
    ((2 ≤ t.stretchHeight ∧ t.stretchHeight ≤ 8) ∧ k = 'h' :: inDecimal t.stretchHeight) ∨
    (((2 ≤ t.stretchWidth ∧ t.stretchWidth ≤ 8) ∨ (2 ≤ t.stretchHeight ∧ t.stretchHeight ≤ 8)) ∧ k = "str".toList) ∨
    (0 < t.underline ∧ k = "u".toList) ∨ (1 < t.underline ∧ k = "ud".toList) ∨ (t.upsideDown ∧ k = "upd".toList) ∨
    (t.font = .B ∧ k = "fb".toList) ∨ (t.font = .C ∧ k = "fc".toList) ∨
    k ∈ colourClass t.textColor cs true ∨ k ∈ colourClass t.backgroundColor cs false := by
  unfold classes
  dsimp only
  simp only [List.mem_append, mem_ite, mem_twice, mem_font]
  simp only [or_assoc]

/-- The classes of colours. -/
theorem mem_colour {color : RGBA} {cs : RenderColors} {b : Bool} {k : Str} (h : k ∈ colourClass color cs b) :
    k ∈ ["bg_1".toList, "fg_2".toList, "bg_2".toList, "fg_3".toList, "bg_3".toList, "fg_0".toList] := by
  unfold colourClass at h
  have key : ∀ x ∈ ["bg_1".toList, "fg_2".toList, "bg_2".toList, "fg_3".toList, "bg_3".toList, "fg_0".toList], ∀ k, k ∈ [x] →
      k ∈ ["bg_1".toList, "fg_2".toList, "bg_2".toList, "fg_3".toList, "bg_3".toList, "fg_0".toList] := by
    intro x hx k hk; rw [List.mem_singleton.1 hk]; exact hx
  cases b <;> simp only [if_true, Bool.false_eq_true, if_false] at h <;> repeat' split at h
  all_goals first | exact key _ (by decide) k h | exact absurd h (by simp)

/-- Every class but those of the size is one of these. -/
theorem plain_classes {t : TextSpan} {cs : RenderColors} {k : Str} (hk : k ∈ classes t cs)
    (hw : k.head? ≠ some 'w') (hh : k.head? ≠ some 'h') :
    k ∈ ["b".toList, "i".toList, "s".toList, "sd".toList, "str".toList, "u".toList, "ud".toList, "upd".toList, "fb".toList,
      "fc".toList, "bg_1".toList, "fg_2".toList, "bg_2".toList, "fg_3".toList, "bg_3".toList, "fg_0".toList] := by
  rcases mem_classes.1 hk with h | h | h | h | h | h | h | h | h | h | h | h | h | h
  case inr.inr.inr.inr.inl => exact absurd (by rw [h.2]; rfl) hw
  case inr.inr.inr.inr.inr.inl => exact absurd (by rw [h.2]; rfl) hh
  case inr.inr.inr.inr.inr.inr.inr.inr.inr.inr.inr.inr.inl => exact List.mem_append_right ["b".toList, "i".toList, "s".toList, "sd".toList, "str".toList, "u".toList, "ud".toList, "upd".toList, "fb".toList, "fc".toList] (mem_colour h)
  case inr.inr.inr.inr.inr.inr.inr.inr.inr.inr.inr.inr.inr => exact List.mem_append_right ["b".toList, "i".toList, "s".toList, "sd".toList, "str".toList, "u".toList, "ud".toList, "upd".toList, "fb".toList, "fc".toList] (mem_colour h)
  all_goals (rw [h.2]; decide)

end Thermal
