import Verif.Proofs.HtmlRows
import Verif.Props.Layout
import Verif.Proofs.Handed
import Verif.Proofs.Heights
/-
C63, C74: the HTML documents of a stream.
-/
namespace Thermal
open Html Spec Renderer

/-! ### Characters of the tags -/

theorem digit_clean {n : Nat} {c : Char} (h : c ∈ inDecimal n) : c.isDigit = true := by
  unfold inDecimal at h
  rw [show (toString n).toList = Nat.toDigits 10 n from Nat.toList_repr] at h
  exact Nat.isDigit_of_mem_toDigits (by decide) (by decide) h

theorem dec_clean (c : Char) (hc : c.isDigit = false) (n : Nat) : c ∉ inDecimal n := by
  intro h
  rw [digit_clean h] at hc
  cases hc

theorem class_clean {t : TextSpan} {cs : RenderColors} {k : Str} (hk : k ∈ classes t cs) (c : Char) (hc : c = '{' ∨ c = '>') : c ∉ k := by
  have hd : c.isDigit = false := by rcases hc with rfl | rfl <;> rfl
  have key : k ∈ ["b".toList, "i".toList, "s".toList, "sd".toList, "str".toList, "u".toList, "ud".toList, "upd".toList, "fb".toList,
      "fc".toList, "bg_1".toList, "fg_2".toList, "bg_2".toList, "fg_3".toList, "bg_3".toList, "fg_0".toList] ∨
      ∃ n, k = 'w' :: inDecimal n ∨ k = 'h' :: inDecimal n := by
    have col : ∀ color b, k ∈ colourClass color cs b → k ∈ ["b".toList, "i".toList, "s".toList, "sd".toList, "str".toList, "u".toList, "ud".toList, "upd".toList, "fb".toList,
      "fc".toList, "bg_1".toList, "fg_2".toList, "bg_2".toList, "fg_3".toList, "bg_3".toList, "fg_0".toList] := by
      intro color b h
      unfold colourClass at h
      split at h
      · cases b
        · rw [List.mem_singleton.1 h]; decide +kernel
        · cases h
      · split at h
        · cases b <;> (rw [List.mem_singleton.1 h]; decide +kernel)
        · split at h
          · cases b <;> (rw [List.mem_singleton.1 h]; decide +kernel)
          · cases b
            · cases h
            · rw [List.mem_singleton.1 h]; decide +kernel
    unfold classes at hk
    dsimp only at hk
    simp only [List.mem_append] at hk
    rcases hk with (((((((((hk | hk) | hk) | hk) | hk) | hk) | hk) | hk) | hk) | hk) | hk
    · split at hk
      · rw [List.mem_singleton.1 hk]; exact .inl (by decide +kernel)
      · cases hk
    · split at hk
      · rw [List.mem_singleton.1 hk]; exact .inl (by decide +kernel)
      · cases hk
    · split at hk
      · cases hk
      · split at hk
        · rw [List.mem_singleton.1 hk]; exact .inl (by decide +kernel)
        · rcases List.mem_cons.1 hk with rfl | hk
          · exact .inl (by decide +kernel)
          · rw [List.mem_singleton.1 hk]; exact .inl (by decide +kernel)
    · split at hk
      · exact .inr ⟨_, .inl (List.mem_singleton.1 hk)⟩
      · cases hk
    · split at hk
      · exact .inr ⟨_, .inr (List.mem_singleton.1 hk)⟩
      · cases hk
    · split at hk
      · rw [List.mem_singleton.1 hk]; exact .inl (by decide +kernel)
      · cases hk
    · split at hk
      · cases hk
      · split at hk
        · rw [List.mem_singleton.1 hk]; exact .inl (by decide +kernel)
        · rcases List.mem_cons.1 hk with rfl | hk
          · exact .inl (by decide +kernel)
          · rw [List.mem_singleton.1 hk]; exact .inl (by decide +kernel)
    · split at hk
      · rw [List.mem_singleton.1 hk]; exact .inl (by decide +kernel)
      · cases hk
    · split at hk
      · rw [List.mem_singleton.1 hk]; exact .inl (by decide +kernel)
      · split at hk
        · rw [List.mem_singleton.1 hk]; exact .inl (by decide +kernel)
        · cases hk
    · exact .inl (col _ _ hk)
    · exact .inl (col _ _ hk)
  rcases key with h | ⟨n, rfl | rfl⟩
  · have : ∀ k ∈ ["b".toList, "i".toList, "s".toList, "sd".toList, "str".toList, "u".toList, "ud".toList, "upd".toList, "fb".toList,
      "fc".toList, "bg_1".toList, "fg_2".toList, "bg_2".toList, "fg_3".toList, "bg_3".toList, "fg_0".toList], '{' ∉ k ∧ '>' ∉ k := by
      decide +kernel
    rcases hc with rfl | rfl
    · exact (this k h).1
    · exact (this k h).2
  · rw [List.mem_cons, not_or]
    exact ⟨by rcases hc with rfl | rfl <;> decide, dec_clean c hd n⟩
  · rw [List.mem_cons, not_or]
    exact ⟨by rcases hc with rfl | rfl <;> decide, dec_clean c hd n⟩

theorem intercalate_clean {sep : Str} {ss : List Str} {c : Char} (h1 : c ∉ sep) (h2 : ∀ s ∈ ss, c ∉ s) : c ∉ sep.intercalate ss := by
  rw [← join_intercalate]
  induction ss with
  | nil => simp [join]
  | cons s ss ih =>
    cases ss with
    | nil => simpa [join] using h2 s (by simp)
    | cons t ts =>
      simp only [join, List.mem_append, not_or]
      exact ⟨⟨h2 s (by simp), h1⟩, ih fun x hx => h2 x (by simp [hx])⟩

/-! ### Reading -/

/-- A reader who has reached this text outside a tag reads `t`, line breaks aside, and is outside a tag again. -/
def Reads (s t : Str) : Prop := ∀ rest, (visible false (s ++ rest)).filter (· ≠ '\n') = t ++ (visible false rest).filter (· ≠ '\n')

namespace Reads

theorem nil : Reads [] [] := fun _ => rfl

theorem append {a b x y : Str} (h1 : Reads a x) (h2 : Reads b y) : Reads (a ++ b) (x ++ y) := by
  intro rest
  rw [List.append_assoc, h1, h2, List.append_assoc]

theorem text {t : Str} (h : '<' ∉ t) : Reads t (t.filter (· ≠ '\n')) := by
  induction t with
  | nil => exact nil
  | cons c t ih =>
    rw [List.mem_cons, not_or] at h
    intro rest
    have hc : c ≠ '<' := fun e => h.1 e.symm
    simp only [List.cons_append, visible, if_neg hc]
    rw [List.filter_cons, List.filter_cons, ih h.2 rest]
    split <;> rfl

theorem newline : Reads ['\n'] [] := by
  have := text (t := ['\n']) (by decide)
  simpa using this

theorem inTag {b : Str} (h : '>' ∉ b) (rest : Str) : visible true (b ++ '>' :: rest) = visible false rest := by
  induction b with
  | nil => rfl
  | cons c b ih =>
    rw [List.mem_cons, not_or] at h
    have : (c != '>') = true := by simpa using fun e => h.1 e.symm
    simp only [List.cons_append, visible, this]
    exact ih h.2

theorem tag {b : Str} (h : '>' ∉ b) : Reads ('<' :: (b ++ ['>'])) [] := by
  intro rest
  have : ('<' :: (b ++ ['>'])) ++ rest = '<' :: (b ++ '>' :: rest) := by simp
  rw [this]
  simp only [visible, if_true, List.nil_append]
  rw [inTag h]

theorem lines {ss : List Str} (h : ∀ s ∈ ss, Reads s []) : Reads (['\n'].intercalate ss) [] := by
  rw [← join_intercalate]
  induction ss with
  | nil => exact nil
  | cons s ss ih =>
    cases ss with
    | nil => exact h s (by simp)
    | cons t ts =>
      have := ((h s (by simp)).append newline).append (ih fun x hx => h x (by simp [hx]))
      exact this

theorem linesOf {α : Type} {f : α → Str} {g : α → Str} {l : List α} (h : ∀ a ∈ l, Reads (f a) (g a)) :
    Reads (['\n'].intercalate (l.map f)) (l.flatMap g) := by
  rw [← join_intercalate]
  induction l with
  | nil => exact nil
  | cons s ss ih =>
    cases ss with
    | nil => simpa [join] using h s (by simp)
    | cons t ts =>
      have := ((h s (by simp)).append newline).append (ih fun x hx => h x (by simp [hx]))
      simpa [join] using this

end Reads

theorem svgRect_reads (r : Rectangle) : Reads (svgRect r) [] := by
  have e : svgRect r = '<' :: (("rect width='".toList ++ inDecimal r.w ++ "' height='".toList ++ inDecimal r.h ++ "' x='".toList ++ inDecimal r.x ++
      "' y='".toList ++ inDecimal r.y ++ "' fill='black' /".toList) ++ ['>']) := by
    unfold svgRect
    rw [show "<rect width='".toList = '<' :: "rect width='".toList from by decide +kernel,
      show "' fill='black' />".toList = "' fill='black' /".toList ++ ['>'] from by decide +kernel]
    simp only [List.append_assoc, List.cons_append]
  rw [e]
  refine Reads.tag ?_
  have d := dec_clean '>' rfl
  simp only [List.mem_append, not_or]
  refine ⟨⟨⟨⟨⟨⟨⟨⟨?_, d _⟩, ?_⟩, d _⟩, ?_⟩, d _⟩, ?_⟩, d _⟩, ?_⟩ <;> decide +kernel

theorem svgRect_clean (r : Rectangle) : '{' ∉ svgRect r := by
  have d := dec_clean '{' rfl
  unfold svgRect
  simp only [List.mem_append, not_or]
  refine ⟨⟨⟨⟨⟨⟨⟨⟨?_, d _⟩, ?_⟩, d _⟩, ?_⟩, d _⟩, ?_⟩, d _⟩, ?_⟩ <;> decide +kernel

theorem svg_reads (l w h : Nat) (rs : List Rectangle) : Reads (svg l w h rs) [] := by
  have d := dec_clean '>' rfl
  have e : svg l w h rs = ('<' :: (("svg style='left: ".toList ++ inDecimal l ++ "px;' class='gfx' width='".toList ++ inDecimal w ++
      "' height='".toList ++ inDecimal h ++ "'".toList) ++ ['>'])) ++ ['\n'].intercalate (rs.map svgRect) ++ ('<' :: ("/svg".toList ++ ['>'])) := by
    unfold svg
    rw [show "<svg style='left: ".toList = '<' :: "svg style='left: ".toList from by decide +kernel,
      show "'>".toList = "'".toList ++ ['>'] from by decide +kernel,
      show "</svg>".toList = '<' :: ("/svg".toList ++ ['>']) from by decide +kernel]
    simp only [List.append_assoc, List.cons_append, List.nil_append]
  rw [e]
  refine ((Reads.tag ?_).append (Reads.lines ?_)).append (Reads.tag (by decide +kernel))
  · simp only [List.mem_append, not_or]
    refine ⟨⟨⟨⟨⟨⟨?_, d _⟩, ?_⟩, d _⟩, ?_⟩, d _⟩, ?_⟩ <;> decide +kernel
  · intro s hs
    obtain ⟨r, _, rfl⟩ := List.mem_map.1 hs
    exact svgRect_reads r

theorem svg_clean (l w h : Nat) (rs : List Rectangle) : '{' ∉ svg l w h rs := by
  have d := dec_clean '{' rfl
  unfold svg
  simp only [List.mem_append, not_or]
  refine ⟨⟨⟨⟨⟨⟨⟨⟨?_, d _⟩, ?_⟩, d _⟩, ?_⟩, d _⟩, ?_⟩, ?_⟩, ?_⟩
  case refine_5 =>
    refine intercalate_clean (by decide) fun s hs => ?_
    obtain ⟨r, _, rfl⟩ := List.mem_map.1 hs
    exact svgRect_clean r
  all_goals decide +kernel

theorem imgTag_reads (l w : Nat) {data : Str} (h : '>' ∉ data) : Reads (imgTag l w data) [] := by
  have d := dec_clean '>' rfl
  have e : imgTag l w data = '<' :: (("img style='left: ".toList ++ inDecimal l ++ "px;' class='img' width='".toList ++ inDecimal w ++
      "' src='data:image/png;base64, ".toList ++ data ++ "' /".toList) ++ ['>']) := by
    unfold imgTag
    rw [show "<img style='left: ".toList = '<' :: "img style='left: ".toList from by decide +kernel,
      show "' />".toList = "' /".toList ++ ['>'] from by decide +kernel]
    simp only [List.append_assoc, List.cons_append]
  rw [e]
  refine Reads.tag ?_
  simp only [List.mem_append, not_or]
  refine ⟨⟨⟨⟨⟨⟨?_, d _⟩, ?_⟩, d _⟩, ?_⟩, h⟩, ?_⟩ <;> decide +kernel

theorem imgTag_clean (l w : Nat) {data : Str} (h : '{' ∉ data) : '{' ∉ imgTag l w data := by
  have d := dec_clean '{' rfl
  unfold imgTag
  simp only [List.mem_append, not_or]
  refine ⟨⟨⟨⟨⟨⟨?_, d _⟩, ?_⟩, d _⟩, ?_⟩, h⟩, ?_⟩ <;> decide +kernel

theorem spanTag_reads (l m : Nat) (cs : RenderColors) (t : TextSpan) (h : '<' ∉ t.text) :
    Reads (spanTag l m cs t) (t.text.filter (· ≠ '\n')) := by
  have d := dec_clean '>' rfl
  have e : spanTag l m cs t = ('<' :: (("span style='left: ".toList ++ inDecimal (l + (t.dimensions.map (·.x)).getD 0) ++ "px; top: ".toList ++
      inDecimal ((m - t.characterHeight) * 78 / 100) ++ "px' class='".toList ++ [' '].intercalate (classes t cs) ++ "'".toList) ++ ['>'])) ++
      t.text ++ ('<' :: ("/span".toList ++ ['>'])) := by
    unfold spanTag
    rw [show "<span style='left: ".toList = '<' :: "span style='left: ".toList from by decide +kernel,
      show "'>".toList = "'".toList ++ ['>'] from by decide +kernel,
      show "</span>".toList = '<' :: ("/span".toList ++ ['>']) from by decide +kernel]
    simp only [List.append_assoc, List.cons_append, List.nil_append]
  rw [e]
  have := ((Reads.tag (b := "span style='left: ".toList ++ inDecimal (l + (t.dimensions.map (·.x)).getD 0) ++ "px; top: ".toList ++
      inDecimal ((m - t.characterHeight) * 78 / 100) ++ "px' class='".toList ++ [' '].intercalate (classes t cs) ++ "'".toList) ?_).append
      (Reads.text h)).append (Reads.tag (b := "/span".toList) (by decide +kernel))
  · rw [List.append_nil, List.nil_append] at this
    exact this
  · simp only [List.mem_append, not_or]
    refine ⟨⟨⟨⟨⟨⟨?_, d _⟩, ?_⟩, d _⟩, ?_⟩, ?_⟩, ?_⟩
    case refine_4 => exact intercalate_clean (by decide) fun k hk => class_clean hk _ (.inr rfl)
    all_goals decide +kernel

theorem spanTag_clean (l m : Nat) (cs : RenderColors) (t : TextSpan) (h : '{' ∉ t.text) : '{' ∉ spanTag l m cs t := by
  have d := dec_clean '{' rfl
  unfold spanTag
  simp only [List.mem_append, not_or]
  refine ⟨⟨⟨⟨⟨⟨⟨⟨?_, d _⟩, ?_⟩, d _⟩, ?_⟩, ?_⟩, ?_⟩, h⟩, ?_⟩
  case refine_4 => exact intercalate_clean (by decide) fun k hk => class_clean hk _ (.inl rfl)
  all_goals decide +kernel

theorem block_reads {b : Block} {t : Str} (h : Reads b.inner t) : Reads b.html t := by
  have d := dec_clean '>' rfl
  have e : b.html = ('<' :: (("p style='height: ".toList ++ inDecimal b.height ++ "px; margin-top: ".toList ++ inDecimal b.margin ++ "px'".toList) ++
      ['>'])) ++ b.inner ++ ('<' :: ("/p".toList ++ ['>'])) := by
    unfold Block.html
    rw [show "<p style='height: ".toList = '<' :: "p style='height: ".toList from by decide +kernel,
      show "px'>".toList = "px'".toList ++ ['>'] from by decide +kernel,
      show "</p>".toList = '<' :: ("/p".toList ++ ['>']) from by decide +kernel]
    simp only [List.append_assoc, List.cons_append, List.nil_append]
  rw [e]
  have := ((Reads.tag (b := "p style='height: ".toList ++ inDecimal b.height ++ "px; margin-top: ".toList ++ inDecimal b.margin ++ "px'".toList)
    ?_).append h).append (Reads.tag (b := "/p".toList) (by decide +kernel))
  · rw [List.append_nil, List.nil_append] at this
    exact this
  · simp only [List.mem_append, not_or]
    refine ⟨⟨⟨⟨?_, d _⟩, ?_⟩, d _⟩, ?_⟩ <;> decide +kernel

theorem block_clean {b : Block} (h : '{' ∉ b.inner) : '{' ∉ b.html := by
  have d := dec_clean '{' rfl
  unfold Block.html
  simp only [List.mem_append, not_or]
  refine ⟨⟨⟨⟨⟨⟨?_, d _⟩, ?_⟩, d _⟩, ?_⟩, h⟩, ?_⟩ <;> decide +kernel

theorem presents_clean {png : Png} {x : Context × Call} {y h : Nat} {html : Str} (hp : presents png x y h html)
    (hpng : ∀ w h b, '{' ∉ png w h b) (ht : ∀ s ∈ x.2.spans, '{' ∉ s.text) : '{' ∉ html := by
  obtain ⟨c, call⟩ := x
  unfold presents at hp
  cases call <;> dsimp only at hp ht
  case beginRender => rw [hp.2.2]; simp
  case text spans left high j =>
    rw [hp.2.2]
    refine intercalate_clean (by decide) fun s hs => ?_
    obtain ⟨t, hm, rfl⟩ := List.mem_map.1 hs
    exact spanTag_clean _ _ _ _ (ht t hm)
  case graphics gs =>
    by_cases hg : gs = []
    · rw [(hp.1 hg).2.2]; simp
    · obtain ⟨l, w, rs, e, _⟩ := hp.2 hg
      rw [e]; exact svg_clean _ _ _ _
  case image i => rw [hp.2.2]; exact imgTag_clean _ _ (hpng _ _ _)
  case renderPage =>
    obtain ⟨_, w, px, _, e⟩ := hp
    rw [e]; exact imgTag_clean _ _ (hpng _ _ _)

theorem presents_reads {png : Png} {x : Context × Call} {y h : Nat} {html : Str} (hp : presents png x y h html)
    (hpng : ∀ w h b, '>' ∉ png w h b) (ht : ∀ s ∈ x.2.spans, '<' ∉ s.text) :
    Reads html ((x.2.spans.flatMap (·.text)).filter (· ≠ '\n')) := by
  obtain ⟨c, call⟩ := x
  unfold presents at hp
  cases call <;> dsimp only at hp ht ⊢
  case beginRender => rw [hp.2.2]; exact Reads.nil
  case text spans left high j =>
    rw [hp.2.2]
    have := Reads.linesOf (f := spanTag left high c.graphics.renderColors) (g := fun t : TextSpan => t.text.filter (· ≠ '\n')) (l := spans)
      fun t hm => spanTag_reads _ _ _ t (ht t hm)
    have e : (spans.flatMap (·.text)).filter (· ≠ '\n') = spans.flatMap fun t : TextSpan => t.text.filter (· ≠ '\n') := by
      rw [List.filter_flatMap]
    show Reads _ ((spans.flatMap (·.text)).filter (· ≠ '\n'))
    rw [e]; exact this
  case graphics gs =>
    by_cases hg : gs = []
    · rw [(hp.1 hg).2.2]; exact Reads.nil
    · obtain ⟨l, w, rs, e, _⟩ := hp.2 hg
      rw [e]; exact svg_reads _ _ _ _
  case image i => rw [hp.2.2]; exact imgTag_reads _ _ (hpng _ _ _)
  case renderPage =>
    obtain ⟨_, w, px, _, e⟩ := hp
    rw [e]; exact imgTag_reads _ _ (hpng _ _ _)

/-! ### The documents of a list of calls -/

theorem showing_clean {png : Png} {h : HtmlRenderer} {sheet : List (Context × Call)} (hs : h.Showing png sheet)
    (hpng : ∀ w h b, '{' ∉ png w h b) (ht : ∀ x ∈ sheet, ∀ s ∈ x.2.spans, '{' ∉ s.text) :
    '{' ∉ h.content.flatten ∧ ∃ (rows : List (Nat × Nat × Str)) (blocks : List Block), h.content.flatten = blocks.flatMap Block.html ∧
      List.Forall₂ (fun x r => presents png x r.1 r.2.1 r.2.2) sheet rows ∧
      blocks.map (fun b => (b.height, b.inner)) = rows.map (·.2) ∧
      tops 0 blocks = (rows.zip (overlaps 0 0 (rows.map fun r => (r.1, r.2.1)))).map (fun p => p.1.1 + p.2) := by
  obtain ⟨rows, a, p, b⟩ := hs
  obtain ⟨bs, e1, e2, e3⟩ := HtmlRenderer.pushRows_ok b 0
  dsimp only at e1 e3
  rw [List.nil_append] at e1
  have e4 : h.content.flatten = bs.flatMap Block.html := by rw [e1, List.flatMap_def]
  refine ⟨?_, rows.map (fun r => (r.y, r.height, r.content)), bs, e4, ?_, ?_, ?_⟩
  · rw [e4, List.mem_flatMap]
    rintro ⟨blk, hb, hm⟩
    refine block_clean (b := blk) ?_ hm
    have : (blk.height, blk.inner) ∈ rows.map (fun r => (r.height, r.content)) := by
      rw [← e2]; exact List.mem_map.2 ⟨blk, hb, rfl⟩
    obtain ⟨r, hr, e⟩ := List.mem_map.1 this
    obtain ⟨i, hi, rfl⟩ := List.getElem_of_mem hr
    have hi' : i < sheet.length := by rw [a.length_eq]; exact hi
    have hpres := a.get hi' hi
    have e' : blk.inner = rows[i].content := by simp only [Prod.mk.injEq] at e; exact e.2.symm
    rw [e']
    exact presents_clean hpres hpng (ht _ (List.get_mem _ ⟨i, hi'⟩))
  · rw [List.forall₂_map_right_iff]; exact a
  · rw [e2, List.map_map]; rfl
  · rw [List.map_map]
    have : ((fun r : Nat × Nat × Str => (r.1, r.2.1)) ∘ fun r : Row => (r.y, r.height, r.content)) = fun r : Row => (r.y, r.height) := rfl
    rw [this, List.zip_map_left, List.map_map]
    exact e3

theorem graphics_presents {png : Png} {c : Context} {gs : List Rectangle} (hu : ∀ g ∈ gs, g.x < U32 ∧ g.y < U32) {row : Row}
    (h : graphicsToSvg gs = .ok row) : presents png (c, .graphics gs) row.y row.height row.content := by
  refine ⟨?_, ?_⟩
  · rintro rfl
    simp only [graphicsToSvg, if_true, ok_ok] at h; subst h
    exact ⟨rfl, rfl, rfl⟩
  · intro hg
    obtain ⟨l, w, rs, a, b, c, d, e, _⟩ := C64_svg hg hu h
    exact ⟨l, w, rs, a, b, c, d, e⟩

/-- The calls of the documents, as `sheets` lists them, one call at a time. -/
def sheetAfter (x : Context × Call) (sheet : List (Context × Call)) : List (Context × Call) :=
  match x.2 with
  | .beginRender => [x]
  | .renderPage => sheet ++ [x]
  | .text .. | .graphics _ | .image _ => if x.1.pageMode.enabled then sheet else sheet ++ [x]
  | _ => sheet

theorem sheetAfter_mem {x y : Context × Call} {sheet : List (Context × Call)} (hy : y ∈ sheetAfter x sheet) : y ∈ sheet ∨ y = x := by
  unfold sheetAfter at hy
  split at hy
  · exact .inr (List.mem_singleton.1 hy)
  · rcases List.mem_append.1 hy with hy | hy
    · exact .inl hy
    · exact .inr (List.mem_singleton.1 hy)
  · split at hy
    · exact .inl hy
    · rcases List.mem_append.1 hy with hy | hy
      · exact .inl hy
      · exact .inr (List.mem_singleton.1 hy)
  · split at hy
    · exact .inl hy
    · rcases List.mem_append.1 hy with hy | hy
      · exact .inl hy
      · exact .inr (List.mem_singleton.1 hy)
  · split at hy
    · exact .inl hy
    · rcases List.mem_append.1 hy with hy | hy
      · exact .inl hy
      · exact .inr (List.mem_singleton.1 hy)
  · exact .inl hy

theorem sheets_cons (x : Context × Call) (xs : List (Context × Call)) (sheet : List (Context × Call)) :
    sheets sheet (x :: xs) = (if x.2 = .endRender then [sheet] else []) ++ sheets (sheetAfter x sheet) xs := by
  obtain ⟨c, call⟩ := x
  cases call <;> rfl

theorem perform_showing {gs : Canvas.Glyphs} {png : Png} {x : Context × Call} {s s' : HtmlRenderer × List Str} {sheet : List (Context × Call)}
    (hs : s.1.Showing png sheet) (hx : OnPaper x.1) (hu : x.2.InRange) (hpng : ∀ w h b, '{' ∉ png w h b)
    (ht : ∀ x ∈ sheet, ∀ s ∈ x.2.spans, '{' ∉ s.text) (h : Call.perform (htmlRenderer gs png) x s = .ok s') :
    s'.1.Showing png (sheetAfter x sheet) ∧ ∃ os, s'.2 = s.2 ++ os ∧
      List.Forall₂ (IsDocument png documentHead) os (if x.2 = .endRender then [sheet] else []) := by
  obtain ⟨c, call⟩ := x
  dsimp only at hx hu
  have fin : ∀ {h' : HtmlRenderer} {sh}, h'.Showing png sh → (h', s.2).1.Showing png sh ∧ ∃ os, (h', s.2).2 = s.2 ++ os ∧
      List.Forall₂ (IsDocument png documentHead) os [] := fun h => ⟨h, [], by simp, List.Forall₂.nil⟩
  cases call <;> simp only [Call.perform, htmlRenderer, bind_ok, ok_ok, reduceCtorEq, if_false] at h ⊢
  case beginRender => obtain ⟨h', e, rfl⟩ := h; exact fin (HtmlRenderer.beginRender_showing e)
  case pageBegin => obtain ⟨h', rfl, rfl⟩ := h; exact fin (HtmlRenderer.Showing.page hs _)
  case pageAreaChanged =>
    simp only [HtmlRenderer.pageAreaChanged, bind_ok, pure_ok] at h
    obtain ⟨h', ⟨p1, e1, p2, e2, p3, e3, rfl⟩, rfl⟩ := h
    exact fin (HtmlRenderer.Showing.page hs _)
  case pageEnd => obtain ⟨h', rfl, rfl⟩ := h; exact fin hs
  case renderPage =>
    simp only [HtmlRenderer.renderPage, bind_ok] at h
    obtain ⟨h', ⟨p1, e1, p2, e2, row, e3, e4⟩, rfl⟩ := h
    obtain ⟨a1, a2, a3, a4⟩ := encodeImage_ok e3
    refine fin ((HtmlRenderer.Showing.page hs p2).push (x := (c, .renderPage)) ?_ e4)
    dsimp only at a1 a2 a3 a4
    refine ⟨a1, p1.copy.1, p1.copy.2.2, ?_, ?_⟩
    · rw [a2]; exact a4
    · rw [a2]; exact a3
  case graphics g =>
    unfold HtmlRenderer.renderGraphics at h
    obtain ⟨h', e, rfl⟩ := h
    unfold sheetAfter
    dsimp only
    split at e
    · rename_i hm
      rw [if_pos hm]
      simp only [bind_ok, pure_ok] at e
      obtain ⟨p, _, rfl⟩ := e
      exact fin (HtmlRenderer.Showing.page hs _)
    · rename_i hm
      rw [if_neg hm]
      simp only [bind_ok] at e
      obtain ⟨row, e1, e2⟩ := e
      exact fin (hs.push (graphics_presents hu e1) e2)
  case image g =>
    unfold HtmlRenderer.renderImage at h
    obtain ⟨h', e, rfl⟩ := h
    unfold sheetAfter
    dsimp only
    split at e
    · rename_i hm
      rw [if_pos hm]
      simp only [bind_ok, pure_ok] at e
      obtain ⟨p, _, rfl⟩ := e
      exact fin (HtmlRenderer.Showing.page hs _)
    · rename_i hm
      rw [if_neg hm]
      simp only [bind_ok] at e
      obtain ⟨row, e1, e2⟩ := e
      obtain ⟨a1, a2, a3, a4⟩ := encodeImage_ok e1
      exact fin (hs.push (x := (c, .image g)) ⟨a1, a2, a3⟩ e2)
  case text l o m j =>
    unfold HtmlRenderer.renderText at h
    obtain ⟨h', e, rfl⟩ := h
    unfold sheetAfter
    dsimp only
    split at e
    · rename_i hm
      rw [if_pos hm]
      simp only [bind_ok, pure_ok] at e
      obtain ⟨p, _, rfl⟩ := e
      exact fin (HtmlRenderer.Showing.page hs _)
    · rename_i hm
      rw [if_neg hm]
      simp only [bind_ok] at e
      obtain ⟨row, e1, e2⟩ := e
      exact fin (hs.push (x := (c, .text l o m j)) (spansToHtml_ok hu e1) e2)
  case device => obtain ⟨h', rfl, rfl⟩ := h; exact fin hs
  case endRender =>
    obtain ⟨⟨s1, o⟩, e, rfl⟩ := h
    simp only [Prod.mk.injEq] at e
    obtain ⟨rfl, rfl⟩ := e
    refine ⟨hs, [_], rfl, ?_⟩
    rw [if_pos trivial]
    refine List.Forall₂.cons ?_ List.Forall₂.nil
    obtain ⟨hb, rows, blocks, e1, e2, e3, e4⟩ := showing_clean hs hpng ht
    refine ⟨HtmlRenderer.receiptStyle c (c.getY - s.1.lastY), rows, blocks, ?_, e2, e3, e4⟩
    · rw [HtmlRenderer.endRender_eq hx.colors _ hb, e1]
      rw [show "\"><article>".toList = '"' :: lit "><article>" from by decide +kernel,
        show "\"".toList = ['"'] from by decide +kernel]
      unfold lit
      simp only [List.append_assoc, List.cons_append, List.nil_append]

theorem replay_documents {gs : Canvas.Glyphs} {png : Png} {xs : List (Context × Call)} {s s' : HtmlRenderer × List Str}
    {sheet : List (Context × Call)} (hs : s.1.Showing png sheet) (hx : ∀ x ∈ xs, OnPaper x.1) (hu : ∀ x ∈ xs, x.2.InRange)
    (hpng : ∀ w h b, '{' ∉ png w h b) (ht0 : ∀ x ∈ sheet, ∀ s ∈ x.2.spans, '{' ∉ s.text) (ht : ∀ x ∈ xs, ∀ s ∈ x.2.spans, '{' ∉ s.text)
    (h : replay (htmlRenderer gs png) xs s = .ok s') :
    ∃ os, s'.2 = s.2 ++ os ∧ List.Forall₂ (IsDocument png documentHead) os (sheets sheet xs) := by
  induction xs generalizing s sheet with
  | nil => simp only [replay, ok_ok] at h; subst h; exact ⟨[], by simp, List.Forall₂.nil⟩
  | cons x xs ih =>
    simp only [replay, bind_ok] at h
    obtain ⟨s1, h1, h2⟩ := h
    obtain ⟨a, os, b, c⟩ := perform_showing hs (hx x (by simp)) (hu x (by simp)) hpng ht0 h1
    have ht1 : ∀ y ∈ sheetAfter x sheet, ∀ s ∈ y.2.spans, '{' ∉ s.text := by
      intro y hy
      rcases sheetAfter_mem hy with hy | rfl
      · exact ht0 y hy
      · exact ht y (by simp)
    obtain ⟨os', b', c'⟩ := ih a (fun y hy => hx y (by simp [hy])) (fun y hy => hu y (by simp [hy])) ht1 (fun y hy => ht y (by simp [hy])) h2
    refine ⟨os ++ os', by rw [b', b, List.append_assoc], ?_⟩
    rw [sheets_cons]
    exact List.rel_append c c'

theorem inRange_of {x : Context × Call} (this : Positioned x.2) (ho : x.2.Wears Outfit.Span) : x.2.InRange := by
  obtain ⟨c, k⟩ := x
  cases k <;> try trivial
  intro s hs
  obtain ⟨d, e, _, hy⟩ := this s hs
  refine ⟨?_, ?_, (ho.1 s hs).mem⟩
  · show (s.dimensions.map (·.y)).getD 0 < U32
    rw [e]; exact hy
  · rw [ho.2]
    rcases lineHeight_mem ho.1 with ⟨rfl, _⟩ | h'
    · exact absurd hs List.not_mem_nil
    · exact h'

theorem render_inRange {ext : Ext} {bytes : List Byte} {outs errs} {t : Recording}
    (h : render recorder ext (Renderer.new []) bytes = .ok (outs, errs, t)) : ∀ x ∈ t.child, x.2.InRange :=
  fun x hx => inRange_of (render_positioned h x hx) (render_outfit h x hx)

/-- The same with the head of the documents, see `C63_documents`. -/
theorem documents_shown : ∀ (gs : Canvas.Glyphs) (png : Png) (ext : Ext) (d : Debug) (bytes : List Byte) (outs errs r)
    (units errs' t), render (htmlRenderer gs png) ext (Renderer.new (HtmlRenderer.new d)) bytes = .ok (outs, errs, r) →
    render recorder ext (Renderer.new []) bytes = .ok (units, errs', t) →
    (∀ w h b, '{' ∉ png w h b) → (∀ x ∈ t.child, ∀ s ∈ x.2.spans, '{' ∉ s.text) →
    List.Forall₂ (IsDocument png documentHead) outs (sheets [] t.child) := by
  intro gs png ext d bytes outs errs r units errs' t h h' hpng ht
  have hu := render_inRange h'
  obtain ⟨u, e, t', a1, a2, _⟩ := C68_same_calls _ ext _ bytes outs errs r h
  rw [h', ok_ok] at a1
  simp only [Prod.mk.injEq] at a1
  obtain ⟨_, _, rfl⟩ := a1
  have hp : ∀ x ∈ t.child, OnPaper x.1 := by
    simp only [render, bind_ok, pure_ok] at h'
    obtain ⟨cmds, h1, r1, h2, h3⟩ := h'
    simp only [Prod.mk.injEq] at h3
    obtain ⟨_, _, rfl⟩ := h3
    exact (processCommands_always (J := OnPaper) OnPaper.pen OnPaper.device OnPaper.apply
      (r := Renderer.new []) ⟨OnPaper.start, by simp [Renderer.new]⟩ h2).2
  obtain ⟨os, e1, e2⟩ := replay_documents (sheet := []) (s := (HtmlRenderer.new d, []))
    ⟨[], List.Forall₂.nil, Canvas.new 0, rfl⟩ hp hu hpng (by simp) ht a2
  rw [List.nil_append] at e1
  dsimp only at e1
  rw [e1]; exact e2

/-- C63. Every document the HTML renderer returns for a stream shows, row by row and in order, what the stream prints: each text
line, picture and drawing is one block with its own height, which a browser puts at its `y`, shifted down by as much as the rows before
it overlap (not at all if they come from top to bottom).  The stream's printing calls are those the recording renderer gets (C68).
No text may contain `{`, see `C74_substituted`. -/
theorem C63_documents : ∃ head : Str, ∀ (gs : Canvas.Glyphs) (png : Png) (ext : Ext) (d : Debug) (bytes : List Byte) (outs errs r)
    (units errs' t), render (htmlRenderer gs png) ext (Renderer.new (HtmlRenderer.new d)) bytes = .ok (outs, errs, r) →
    render recorder ext (Renderer.new []) bytes = .ok (units, errs', t) →
    (∀ w h b, '{' ∉ png w h b) → (∀ x ∈ t.child, ∀ s ∈ x.2.spans, '{' ∉ s.text) →
    List.Forall₂ (IsDocument png head) outs (sheets [] t.child) :=
  ⟨documentHead, documents_shown⟩

theorem blocks_reads {png : Png} {sheet : List (Context × Call)} {rows : List (Nat × Nat × Str)} {blocks : List Block}
    (h1 : List.Forall₂ (fun x (r : Nat × Nat × Str) => presents png x r.1 r.2.1 r.2.2) sheet rows)
    (h2 : blocks.map (fun b => (b.height, b.inner)) = rows.map (·.2)) (hpng : ∀ w h b, '>' ∉ png w h b)
    (ht : ∀ x ∈ sheet, ∀ s ∈ x.2.spans, '<' ∉ s.text) : Reads (blocks.flatMap Block.html) ((sheetText sheet).filter (· ≠ '\n')) := by
  induction h1 generalizing blocks with
  | nil =>
    obtain rfl : blocks = [] := by simpa using h2
    exact Reads.nil
  | @cons x r sheet rows hx _ ih =>
    cases blocks with
    | nil => simp at h2
    | cons b bs =>
      simp only [List.map_cons, List.cons.injEq] at h2
      have h3 := presents_reads hx hpng (ht x (by simp))
      rw [← h2.1] at h3
      have := (block_reads h3).append (ih h2.2 fun y hy => ht y (by simp [hy]))
      simp only [sheetText, List.flatMap_cons, List.filter_append]
      exact this

/-- C74. The text a reader sees in a document, line breaks aside, is exactly the text its calls print, in order: tags taken away, nothing is
lost and nothing is added.  Text must not contain `<` and `{`, which the program does not escape (`C74_not_escaped`,
`C74_substituted`); nor `&`, which browsers may read as the start of a character reference. -/
theorem C74_reads_partial : ∃ head : Str, ∀ (gs : Canvas.Glyphs) (png : Png) (ext : Ext) (d : Debug) (bytes : List Byte) (outs errs r)
    (units errs' t), render (htmlRenderer gs png) ext (Renderer.new (HtmlRenderer.new d)) bytes = .ok (outs, errs, r) →
    render recorder ext (Renderer.new []) bytes = .ok (units, errs', t) →
    (∀ w h b, '{' ∉ png w h b ∧ '>' ∉ png w h b) →
    (∀ x ∈ t.child, ∀ s ∈ x.2.spans, '{' ∉ s.text ∧ '<' ∉ s.text) →
    List.Forall₂ (fun out sheet => ∃ style article, out = head ++ "\"".toList ++ style ++ "\"><article>".toList ++ article ++
        "</article></section></main>\n</body>\n</html>".toList ∧
      (visible false article).filter (· ≠ '\n') = (sheetText sheet).filter (· ≠ '\n')) outs (sheets [] t.child) := by
  obtain ⟨head, hh⟩ := C63_documents
  refine ⟨head, ?_⟩
  intro gs png ext d bytes outs errs r units errs' t h h' hpng ht
  have := hh gs png ext d bytes outs errs r units errs' t h h' (fun w h b => (hpng w h b).1) (fun x hx s hs => (ht x hx s hs).1)
  have hsub : ∀ sheet ∈ sheets [] t.child, ∀ x ∈ sheet, x ∈ t.child := by
    have key : ∀ (xs : List (Context × Call)) (s0 : List (Context × Call)) (P : Context × Call → Prop), (∀ x ∈ s0, P x) → (∀ x ∈ xs, P x) →
        ∀ sheet ∈ sheets s0 xs, ∀ x ∈ sheet, P x := by
      intro xs
      induction xs with
      | nil => intro s0 P h0 h1 sheet hs; simp [sheets] at hs
      | cons x xs ih =>
        intro s0 P h0 h1 sheet hs
        rw [sheets_cons] at hs
        rcases List.mem_append.1 hs with hs | hs
        · split at hs
          · rw [List.mem_singleton.1 hs]; exact h0
          · cases hs
        · refine ih _ P ?_ (fun y hy => h1 y (by simp [hy])) sheet hs
          intro y hy
          rcases sheetAfter_mem hy with hy | rfl
          · exact h0 y hy
          · exact h1 y (by simp)
    exact key t.child [] (· ∈ t.child) (by simp) (fun x hx => hx)
  generalize sheets [] t.child = ss at this hsub
  clear hh h h'
  induction this with
  | nil => exact List.Forall₂.nil
  | @cons out sheet outs ss h1 _ ih =>
    refine List.Forall₂.cons ?_ (ih fun sheet hs => hsub sheet (by simp [hs]))
    obtain ⟨style, rows, blocks, e1, e2, e3, _⟩ := h1
    refine ⟨style, _, e1, ?_⟩
    have := blocks_reads e2 e3 (fun w h b => (hpng w h b).2) (fun x hx s hs => (ht x (hsub sheet (by simp) x hx) s hs).2) []
    simpa [visible] using this

/-- For examples: blank glyphs. -/
def noGlyphs : Canvas.Glyphs := ⟨fun _ _ _ _ _ => ⟨false, 1, [0], 0, 0⟩⟩

/-- For examples: every picture is written as the same text. -/
def noPng : Png := fun _ _ _ => "iVBORw0KGgo=".toList

/-- C63, C74: a stream with two lines of text, the second one emphasized, and a barcode-free drawing: its calls meet the hypotheses. -/
example : ∃ outs errs r units errs' t, render (htmlRenderer noGlyphs noPng) noExt (Renderer.new HtmlRenderer.new)
      [72, 105, 10, 27, 69, 1, 72, 111, 10] = .ok (outs, errs, r) ∧
    render recorder noExt (Renderer.new []) [72, 105, 10, 27, 69, 1, 72, 111, 10] = .ok (units, errs', t) ∧
    (sheets [] t.child).map sheetText = ["HiHo".toList] ∧ (∀ x ∈ t.child, ∀ s ∈ x.2.spans, '{' ∉ s.text ∧ '<' ∉ s.text) := by
  refine ⟨_, _, _, _, _, _, rfl, rfl, ?_⟩
  decide +kernel

theorem ends_with {out t : Str} (n : Nat) (h : out.drop n = t) : ∃ before, out = before ++ t :=
  ⟨out.take n, by rw [← h, List.take_append_drop]⟩

/-- C74: `<` is not escaped: the text `<b>` stands in the document as a tag. -/
theorem C74_not_escaped : ∃ out errs r, render (htmlRenderer noGlyphs noPng) noExt (Renderer.new HtmlRenderer.new)
      [60, 98, 62] = .ok ([out], errs, r) ∧ ∃ before, out = before ++ "class=''><b></span></p></article></section></main>\n</body>\n</html>".toList := by
  refine ⟨_, _, _, rfl, ends_with 2910 ?_⟩
  decide +kernel

/-- C74: the text `{{receipt-style}}` is replaced by the style of the receipt. -/
theorem C74_substituted : ∃ out errs r, render (htmlRenderer noGlyphs noPng) noExt (Renderer.new HtmlRenderer.new)
      [123, 123, 114, 101, 99, 101, 105, 112, 116, 45, 115, 116, 121, 108, 101, 125, 125] = .ok ([out], errs, r) ∧
      ∃ before, out = before ++ "px; padding-bottom: 0px;</span></p></article></section></main>\n</body>\n</html>".toList := by
  refine ⟨_, _, _, rfl, ends_with 2970 ?_⟩
  decide +kernel

end Thermal
