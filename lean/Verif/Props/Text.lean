import Verif.Model.Text
/-
C27, C28: splitting text spans.
-/
namespace Thermal

/-- The span `w` is `s` with another text (and no position yet). -/
def SameStyle (s w : TextSpan) : Prop := w = { s with text := w.text, dimensions := none }

/-- What a list of words of a text is: nothing is lost or reordered, no word is empty, white space occurs only as the
last character of a word, and every word except the last one ends with white space. -/
structure IsWords (t : Str) (ws : List Str) : Prop where
  lossless : ws.flatten = t
  nonempty : ∀ w ∈ ws, w ≠ []
  inside : ∀ w ∈ ws, ∀ a c b, w = a ++ c :: b → isWhitespace c = true → b = []
  ends : ∀ a w b, ws = a ++ w :: b → b ≠ [] → ∃ c, w.getLast? = some c ∧ isWhitespace c = true

theorem isWords_wordsLoop (t : Str) : ∀ cur : Str, (∀ c ∈ cur, isWhitespace c = false) → IsWords (cur ++ t) (wordsLoop t cur) := by
  induction t with
  | nil =>
    intro cur hcur
    unfold wordsLoop
    split
    · next h => exact ⟨by simp [h], by simp, by simp, by simp⟩
    · next h =>
      refine ⟨by simp, by simpa using h, ?_, ?_⟩
      · intro w hw a c b hab hc
        simp only [List.mem_singleton] at hw
        rw [hw] at hab
        have := hcur c (by rw [hab]; simp)
        rw [this] at hc; cases hc
      · intro a w b hab hb
        cases a with
        | nil => simp only [List.nil_append, List.cons.injEq] at hab; exact absurd hab.2.symm hb
        | cons x a => simp at hab
  | cons c t ih =>
    intro cur hcur
    unfold wordsLoop
    split
    · next hc =>
      have ⟨h1, h2, h3, h4⟩ := ih [] (by simp)
      refine ⟨by simp [h1], ?_, ?_, ?_⟩
      · intro w hw
        rcases List.mem_cons.1 hw with h | h
        · simp [h]
        · exact h2 w h
      · intro w hw a d b hab hd
        rcases List.mem_cons.1 hw with h | h
        · rw [h] at hab
          rcases List.eq_nil_or_concat b with rfl | ⟨b, e, rfl⟩
          · rfl
          · rw [List.concat_eq_append, ← List.cons_append, ← List.append_assoc] at hab
            have := List.append_inj_left' hab rfl
            have := hcur d (by rw [this]; simp)
            rw [this] at hd; cases hd
        · exact h3 w h a d b hab hd
      · intro a w b hab hb
        cases a with
        | nil =>
          simp only [List.nil_append, List.cons.injEq] at hab
          exact ⟨c, by rw [← hab.1]; simp, hc⟩
        | cons x a =>
          simp only [List.cons_append, List.cons.injEq] at hab
          exact h4 a w b hab.2 hb
    · next hc =>
      have := ih (cur ++ [c]) (by
        intro d hd
        rcases List.mem_append.1 hd with h | h
        · exact hcur d h
        · simp only [List.mem_singleton] at h; rw [h]; simpa using hc)
      simpa using this

/-- C27. Splitting a span into words loses and reorders nothing, and every word keeps the style of the span. -/
theorem C27_words (s : TextSpan) :
    IsWords s.text (s.breakIntoWords.map (·.text)) ∧ ∀ w ∈ s.breakIntoWords, SameStyle s w := by
  constructor
  · have := isWords_wordsLoop s.text [] (by simp)
    unfold TextSpan.breakIntoWords
    rw [List.map_map]
    simpa [Function.comp_def, TextSpan.cloneWith] using this
  · intro w hw
    obtain ⟨t, _, rfl⟩ := List.mem_map.1 hw
    rfl

/-- There is only one way to split a text into words. -/
theorem C27_unique (t : Str) (ws ws' : List Str) (h : IsWords t ws) (h' : IsWords t ws') : ws = ws' := by
  induction ws generalizing t ws' with
  | nil =>
    have : t = [] := by rw [← h.lossless]; rfl
    cases ws' with
    | nil => rfl
    | cons w ws' =>
      have h0 := h'.lossless
      rw [this] at h0
      simp only [List.flatten_cons, List.append_eq_nil_iff] at h0
      exact absurd h0.1 (h'.nonempty w (by simp))
  | cons w ws ih =>
    cases ws' with
    | nil =>
      have h0 := h.lossless
      rw [← h'.lossless] at h0
      simp only [List.flatten_cons, List.flatten_nil, List.append_eq_nil_iff] at h0
      exact absurd h0.1 (h.nonempty w (by simp))
    | cons w' ws' =>
      have e : w ++ ws.flatten = w' ++ ws'.flatten := by
        have h1 := h.lossless; have h2 := h'.lossless
        rw [List.flatten_cons] at h1 h2; rw [h1, h2]
      have key : ∀ (x x' : Str) (xs xs' : List Str), IsWords t (x :: xs) → IsWords t (x' :: xs') → ∀ r, x' = x ++ r → r = [] := by
        intro x x' xs xs' hx hx' r hr
        cases r with
        | nil => rfl
        | cons c r =>
          exfalso
          have hf := hx.lossless
          rw [← hx'.lossless] at hf
          simp only [List.flatten_cons, hr] at hf
          have hne : xs ≠ [] := by
            rintro rfl
            rw [List.flatten_nil, List.append_nil] at hf
            have := congrArg List.length hf
            simp at this
          obtain ⟨d, hd, hdw⟩ := hx.ends [] x xs rfl hne
          obtain ⟨x0, rfl⟩ := List.getLast?_eq_some_iff.1 hd
          have := hx'.inside x' (by simp) x0 d (c :: r) (by rw [hr]; simp) hdw
          cases this
      have hww : w = w' := by
        rcases List.append_eq_append_iff.1 e with ⟨r, h1, _⟩ | ⟨r, h1, _⟩
        · have := key w w' ws ws' h h' r h1; rw [this] at h1; simpa using h1.symm
        · have := key w' w ws' ws h' h r h1; rw [this] at h1; simpa using h1
      subst hww
      have e' := List.append_cancel_left e
      congr 1
      apply ih ws.flatten
      · refine ⟨rfl, fun v hv => h.nonempty v (by simp [hv]), fun v hv => h.inside v (by simp [hv]), ?_⟩
        intro a v b hab hb
        exact h.ends (w :: a) v b (by rw [hab]; rfl) hb
      · refine ⟨e'.symm, fun v hv => h'.nonempty v (by simp [hv]), fun v hv => h'.inside v (by simp [hv]), ?_⟩
        intro a v b hab hb
        exact h'.ends (w :: a) v b (by rw [hab]; rfl) hb

/-- C27, a concrete split. -/
example : wordsLoop ("ab  c\nd".toList.map (fun c => c)) [] =
    ["ab ".toList, " ".toList, "c\n".toList, "d".toList] := by decide +kernel

/-! ### break_apart -/

theorem chunksAux_spec (l : Nat) (hl : 0 < l) : ∀ (k : Nat) (t : Str), t.length ≤ k →
    (chunksAux l k t).flatten = t ∧ ∀ w ∈ chunksAux l k t, 1 ≤ w.length ∧ w.length ≤ l := by
  intro k
  induction k with
  | zero =>
    intro t ht
    have : t = [] := List.length_eq_zero_iff.1 (by omega)
    subst this
    exact ⟨rfl, by simp [chunksAux]⟩
  | succ k ih =>
    intro t ht
    cases t with
    | nil => exact ⟨rfl, by simp [chunksAux]⟩
    | cons c t =>
      have ⟨h1, h2⟩ := ih ((c :: t).drop l) (by rw [List.length_drop]; simp only [List.length_cons] at ht ⊢; omega)
      simp only [chunksAux]
      refine ⟨by rw [List.flatten_cons, h1, List.take_append_drop], ?_⟩
      intro w hw
      rcases List.mem_cons.1 hw with h | h
      · rw [h, List.length_take]; simp only [List.length_cons]; omega
      · exact h2 w h

/-- All chunks except the last one are full. -/
theorem chunksAux_full (l : Nat) : ∀ (k : Nat) (t : Str), ∀ a w b, chunksAux l k t = a ++ w :: b → b ≠ [] → w.length = l := by
  intro k
  induction k with
  | zero => intro t a w b h; simp [chunksAux] at h
  | succ k ih =>
    intro t a w b h hb
    cases t with
    | nil => simp [chunksAux] at h
    | cons c t =>
      simp only [chunksAux] at h
      cases a with
      | nil =>
        simp only [List.nil_append, List.cons.injEq] at h
        rw [← h.1, List.length_take]
        apply Nat.min_eq_left
        rcases Nat.lt_or_ge (c :: t).length l with hlt | hge
        · exfalso
          rw [List.drop_eq_nil_of_le (by omega)] at h
          have : chunksAux l k ([] : Str) = [] := by cases k <;> rfl
          rw [this] at h
          exact hb h.2.symm
        · exact hge
      | cons x a =>
        simp only [List.cons_append, List.cons.injEq] at h
        exact ih _ a w b h.2 hb

/-- C28. Breaking a span with a positive line length gives a first span of at most `first` characters and further ones of
1 to `len` characters that together are the original text, in the style of the span; as much as fits goes on every line.
With line length 0 it panics. -/
theorem C28_break_apart (s : TextSpan) (first len : Nat) :
    (len = 0 → s.breakApart first len = .error .explicit) ∧
    (0 < len → ∃ a rest, s.breakApart first len = .ok (a :: rest) ∧
      a.text ++ (rest.map (·.text)).flatten = s.text ∧
      a.text.length = min first s.text.length ∧
      (∀ w ∈ rest, 1 ≤ w.text.length ∧ w.text.length ≤ len) ∧
      (∀ pre w post, rest = pre ++ w :: post → post ≠ [] → w.text.length = len) ∧
      (∀ w ∈ a :: rest, SameStyle s w)) := by
  constructor
  · intro h; unfold TextSpan.breakApart; rw [if_pos h]
  · intro hl
    have hmap : ∀ l : List Str, (l.map s.cloneWith).map (·.text) = l := by
      intro l; rw [List.map_map]; simp [Function.comp_def, TextSpan.cloneWith]
    have hst : ∀ t : Str, SameStyle s (s.cloneWith t) := fun _ => rfl
    have main : ∀ (h : Str) (r : List Str), s.breakApart first len = .ok (s.cloneWith h :: r.map s.cloneWith) →
        h ++ r.flatten = s.text → h.length = min first s.text.length → (∀ w ∈ r, 1 ≤ w.length ∧ w.length ≤ len) →
        (∀ pre w post, r = pre ++ w :: post → post ≠ [] → w.length = len) → ∃ a rest, s.breakApart first len = .ok (a :: rest) ∧
      a.text ++ (rest.map (·.text)).flatten = s.text ∧
      a.text.length = min first s.text.length ∧
      (∀ w ∈ rest, 1 ≤ w.text.length ∧ w.text.length ≤ len) ∧
      (∀ pre w post, rest = pre ++ w :: post → post ≠ [] → w.text.length = len) ∧
      (∀ w ∈ a :: rest, SameStyle s w) := by
      intro h r he h1 h2 h3 h4
      refine ⟨_, _, he, by rw [hmap]; exact h1, h2, ?_, ?_, ?_⟩
      · intro w hw
        obtain ⟨t, ht, rfl⟩ := List.mem_map.1 hw
        exact h3 t ht
      · intro pre w post hpp hpost
        have := congrArg (List.map (·.text)) hpp
        rw [hmap, List.map_append, List.map_cons] at this
        exact h4 _ _ _ this (by simpa using hpost)
      · intro w hw
        rcases List.mem_cons.1 hw with h | h
        · rw [h]; exact hst _
        · obtain ⟨t, ht, rfl⟩ := List.mem_map.1 h
          exact hst t
    unfold TextSpan.breakApart at main ⊢
    rw [if_neg (by omega)] at main ⊢
    split at main
    · next hf =>
      have ⟨h1, h2⟩ := chunksAux_spec len hl s.text.length (s.text.drop first) (by rw [List.length_drop]; omega)
      rw [if_pos hf]
      exact main _ _ rfl (by rw [h1, List.take_append_drop]) (by rw [List.length_take]) h2 (chunksAux_full len _ _)
    · next hf =>
      have ⟨h1, h2⟩ := chunksAux_spec len hl s.text.length s.text (Nat.le_refl _)
      rw [if_neg hf]
      exact main _ _ rfl (by rw [h1]; rfl) (by simp only [List.length_nil]; omega) h2 (chunksAux_full len _ _)

/-- C28, a concrete case: seven characters, three left on this line, two per line after that. -/
example : ((TextSpan.new "abcdefg".toList Context.new).breakApart 3 2).map (·.map (·.text)) =
    .ok ["abc".toList, "de".toList, "fg".toList] := by decide +kernel

end Thermal
