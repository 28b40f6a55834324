import Verif.Props.Html
import Verif.Props.ImageOutput
import Mathlib.Tactic.ByContra
/-
Replacing in strings, and the HTML renderer's rows against the calls they show.
-/
namespace Thermal
open Html Spec

/-! ### `str::replace` -/

theorem replaceLoop_sep (p r : Str) (c : Char) (hc : c ∉ p) (hp : p ≠ []) (k : Nat) (X Y : Str) (hk : k ≤ X.length) :
    replaceLoop p r k (X ++ c :: Y) = replaceLoop p r k X ++ c :: replaceLoop p r 0 Y := by
  induction X generalizing k with
  | nil =>
    obtain rfl : k = 0 := by simpa using hk
    have : p.isPrefixOf (c :: Y) = false := by
      cases p with
      | nil => exact absurd rfl hp
      | cons a p =>
        have : a ≠ c := fun e => hc (by simp [e])
        simp [List.isPrefixOf, this]
    simp [replaceLoop, this]
  | cons x X ih =>
    cases k with
    | succ k => simpa [replaceLoop] using ih k (by simpa using hk)
    | zero =>
      have hpre : p.isPrefixOf (x :: X ++ c :: Y) = p.isPrefixOf (x :: X) := by
        rw [Bool.eq_iff_iff, List.isPrefixOf_iff_prefix, List.isPrefixOf_iff_prefix]
        constructor
        · rintro ⟨t, ht⟩
          rcases List.append_eq_append_iff.1 ht with ⟨a, e, _⟩ | ⟨a, e, e'⟩
          · exact ⟨a, e.symm⟩
          · cases a with
            | nil => exact ⟨[], by simpa using e⟩
            | cons b a =>
              obtain ⟨rfl, _⟩ : c = b ∧ _ := by simpa using e'
              exact absurd (by rw [e]; simp) hc
        · intro h; exact h.trans (List.prefix_append _ _)
      simp only [List.cons_append, replaceLoop] at hpre ⊢
      rw [hpre]
      split
      · rename_i hm
        have hl : p.length ≤ X.length + 1 := by
          simpa using (List.isPrefixOf_iff_prefix.1 hm).length_le
        rw [ih (p.length - 1) (by omega), List.append_assoc]
      · rw [ih 0 (by omega)]; rfl

theorem replace_sep {p r : Str} {c : Char} (hc : c ∉ p) (hp : p ≠ []) (X Y : Str) :
    replace p r (X ++ c :: Y) = replace p r X ++ c :: replace p r Y := replaceLoop_sep p r c hc hp 0 X Y (Nat.zero_le _)

theorem replace_none {a : Char} {p r s : Str} (h : a ∉ s) : replace (a :: p) r s = s := by
  unfold replace
  induction s with
  | nil => rfl
  | cons c s ih =>
    simp only [List.mem_cons, not_or] at h
    have : (a :: p).isPrefixOf (c :: s) = false := by simp [List.isPrefixOf, h.1]
    simp only [replaceLoop, this]
    rw [ih h.2]; rfl

theorem replaceLoop_skip (p r X Y : Str) : replaceLoop p r X.length (X ++ Y) = replaceLoop p r 0 Y := by
  induction X with
  | nil => rfl
  | cons x X ih => simpa [replaceLoop] using ih

theorem replace_at {p r Y : Str} (hp : p ≠ []) : replace p r (p ++ Y) = r ++ replace p r Y := by
  cases p with
  | nil => exact absurd rfl hp
  | cons a p =>
    unfold replace
    have : (a :: p).isPrefixOf (a :: (p ++ Y)) = true := by
      rw [List.isPrefixOf_iff_prefix]; exact List.prefix_append (a :: p) Y
    simp only [List.cons_append, replaceLoop, this, if_true, List.length_cons, Nat.add_sub_cancel]
    rw [replaceLoop_skip]

/-! ### The template -/

/-- The template with the default colours. -/
def colouredTemplate : Str :=
  replace (lit "{{color-3}}") defaultColors.color3.asHex
    (replace (lit "{{color-2}}") defaultColors.color2.asHex
      (replace (lit "{{color-1}}") defaultColors.color1.asHex
        (replace (lit "{{color-0}}") defaultColors.paperColor.asHex template)))

/-- The document up to the style of the receipt, without the quotation mark. -/
def documentHead : Str := colouredTemplate.take 2702

theorem colouredTemplate_parts : colouredTemplate = documentHead ++ '"' :: (lit "{{receipt-style}}" ++ '"' :: (lit "><article>" ++
    (lit "{{content}}" ++ lit "</article></section></main>\n</body>\n</html>"))) := by
  decide +kernel

theorem replace_absent {p r s : Str} (h : ∀ t ∈ s.tails, t ≠ [] → p.isPrefixOf t = false) : replace p r s = s := by
  unfold replace
  induction s with
  | nil => rfl
  | cons c s ih =>
    simp only [replaceLoop, h (c :: s) (by simp) (by simp)]
    rw [ih fun t ht => h t (by simp only [List.tails, List.mem_cons]; exact .inr ht)]; rfl

theorem head_content (r : Str) : replace (lit "{{content}}") r documentHead = documentHead := replace_absent (by decide +kernel)

theorem head_style (r : Str) : replace (lit "{{receipt-style}}") r documentHead = documentHead := replace_absent (by decide +kernel)

/-- The whole document: head, style of the receipt, content. -/
theorem HtmlRenderer.endRender_eq {c : Context} (hc : c.graphics.renderColors = defaultColors) (h : HtmlRenderer)
    (hb : '{' ∉ h.content.flatten) :
    h.endRender c = documentHead ++ '"' :: (receiptStyle c (c.getY - h.lastY) ++ '"' :: (lit "><article>" ++
      (h.content.flatten ++ lit "</article></section></main>\n</body>\n</html>"))) := by
  unfold endRender
  rw [hc]
  show replace _ _ (replace _ _ colouredTemplate) = _
  have q1 : '"' ∉ lit "{{content}}" := by decide +kernel
  have q2 : '"' ∉ lit "{{receipt-style}}" := by decide +kernel
  have n1 : lit "{{content}}" ≠ [] := by decide +kernel
  have n2 : lit "{{receipt-style}}" ≠ [] := by decide +kernel
  have e1 : replace (lit "{{content}}") h.content.flatten (lit "{{receipt-style}}") = lit "{{receipt-style}}" :=
    replace_absent (by decide +kernel)
  have q3 : '>' ∉ lit "{{content}}" := by decide +kernel
  have e2 : lit "><article>" = lit "><article" ++ ['>'] := by decide +kernel
  have e3 : ∀ r, replace (lit "{{content}}") r (lit "><article") = lit "><article" := fun r => replace_absent (by decide +kernel)
  have e4 : ∀ r, replace (lit "{{content}}") r (lit "</article></section></main>\n</body>\n</html>") = lit "</article></section></main>\n</body>\n</html>" :=
    fun r => replace_absent (by decide +kernel)
  rw [colouredTemplate_parts, replace_sep q1 n1, head_content, replace_sep q1 n1, e1, e2]
  simp only [List.append_assoc, List.cons_append, List.nil_append]
  rw [replace_sep q3 n1, e3, replace_at n1, e4, replace_sep q2 n2, head_style]
  congr 2
  rw [show lit "{{receipt-style}}" ++ '"' :: (lit "><article" ++ '>' :: (h.content.flatten ++ lit "</article></section></main>\n</body>\n</html>")) =
    lit "{{receipt-style}}" ++ ('"' :: (lit "><article" ++ '>' :: (h.content.flatten ++ lit "</article></section></main>\n</body>\n</html>"))) from rfl,
    replace_at n2]
  congr 1
  have b1 : '{' ∉ lit "><article" := by decide +kernel
  have b2 : '{' ∉ lit "</article></section></main>\n</body>\n</html>" := by decide +kernel
  exact replace_none (p := lit "{receipt-style}}") (by
    simp only [List.mem_cons, List.mem_append, not_or]
    exact ⟨by decide, b1, by decide, hb, b2⟩)

end Thermal
