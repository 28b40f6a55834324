import Verif.Model.ThermalFile
import Verif.Proofs.Str
import Verif.Proofs.SubLookup
import Verif.Spec.ThermalFile
/-
The tokenizer without byte offsets.
-/
namespace Thermal
set_option linter.unusedSimpArgs false

/-- the tokens of the remaining characters; `cur` is the open span -/
def tokAbs : Str → Str → Bool → Bool → List Str
  | [], cur, _, _ => if cur = [] then [] else [cur]
  | c :: cs, cur, true, esc =>
    if c = '\\' ∧ esc = true then tokAbs cs (cur ++ [c]) true false
    else if c = '"' ∧ esc = true then tokAbs cs (cur ++ [c]) true false
    else if c = '\\' then tokAbs cs (cur ++ [c]) true true
    else if c = '"' then cur :: tokAbs cs [] false false
    else tokAbs cs (cur ++ [c]) true false
  | c :: cs, cur, false, _ =>
    if c = '"' then tokAbs cs ['"'] true false
    else if isAsciiWhitespace c then (if cur = [] then [] else [cur]) ++ tokAbs cs [] false false
    else tokAbs cs (cur ++ [c]) false false

/-- the concrete state is the abstract one plus offsets -/
structure TokRel (line done cur rest : Str) (t : TokState) : Prop where
  line : line = done ++ cur ++ rest
  s0 : t.s0 = done.byteLen
  s1 : t.s1 = done.byteLen + cur.byteLen

theorem size_backslash : ('\\' : Char).utf8Size = 1 := by decide
theorem size_quote : ('"' : Char).utf8Size = 1 := by decide

theorem tokRel_keep {line done cur rest c t s1' esc g} (h : TokRel line done cur (c :: rest) t)
    (hs : s1' = t.s1 + c.utf8Size) :
    TokRel line done (cur ++ [c]) rest { t with s1 := s1', esc := esc, gobble := g } := by
  refine ⟨by rw [h.line]; simp, h.s0, ?_⟩
  rw [byteLen_append, hs]
  simp [h.s1, Str.byteLen, Nat.add_assoc]

theorem tokRel_move {line done cur rest c t ts e g x} (h : TokRel line done cur (c :: rest) t)
    (hx : x = t.s1 + c.utf8Size) :
    TokRel line (done ++ cur ++ [c]) [] rest { tokens := ts, s0 := x, s1 := x, esc := e, gobble := g } := by
  have : (done ++ cur ++ [c]).byteLen = done.byteLen + cur.byteLen + c.utf8Size := by
    rw [byteLen_append, byteLen_append]; simp [Str.byteLen]
  refine ⟨by rw [h.line]; simp, ?_, ?_⟩
  · simp only []; rw [this, hx, h.s1]
  · simp only []; rw [this, hx, h.s1]; simp [Str.byteLen]

theorem tokRel_span {line done cur rest t} (h : TokRel line done cur rest t) :
    (t.s0 ≠ t.s1 ↔ cur ≠ []) ∧ line.slice t.s0 t.s1 = .ok cur := by
  constructor
  · rw [h.s0, h.s1, ← byteLen_pos]; omega
  · rw [h.line, h.s0, h.s1]; exact slice_mid _ _ _

theorem tokLoop_abs (line : Str) : ∀ (rest done cur : Str) (t : TokState), TokRel line done cur rest t →
    ∃ t', tokLoop line rest t = .ok t' ∧ ∃ done' cur', TokRel line done' cur' [] t' ∧
      t'.tokens ++ (if cur' = [] then [] else [cur']) = t.tokens ++ tokAbs rest cur t.gobble t.esc := by
  intro rest
  induction rest with
  | nil =>
    intro done cur t h
    exact ⟨t, rfl, done, cur, h, by cases t.gobble <;> simp [tokAbs]⟩
  | cons c rest ih =>
    intro done cur t h
    obtain ⟨hne, hsl⟩ := tokRel_span h
    have go : ∀ (t1 : TokState) (done1 cur1 : Str), tokStep line t c = .ok t1 → TokRel line done1 cur1 rest t1 →
        t1.tokens ++ tokAbs rest cur1 t1.gobble t1.esc = t.tokens ++ tokAbs (c :: rest) cur t.gobble t.esc →
        ∃ t', tokLoop line (c :: rest) t = .ok t' ∧ ∃ done' cur', TokRel line done' cur' [] t' ∧
          t'.tokens ++ (if cur' = [] then [] else [cur']) = t.tokens ++ tokAbs (c :: rest) cur t.gobble t.esc := by
      intro t1 d1 c1 h1 h2 h3
      obtain ⟨t', g1, d', c', g2, g3⟩ := ih d1 c1 t1 h2
      refine ⟨t', ?_, d', c', g2, by rw [g3, h3]⟩
      simp only [tokLoop, h1, bind, Except.bind, g1]
    rcases hg : t.gobble with _ | _
    · -- outside quotes
      by_cases hq : c = '"'
      · subst hq
        refine go { t with gobble := true, esc := false, s0 := t.s1, s1 := t.s1 + 1 } (done ++ cur) ['"'] ?_ ?_ ?_
          |>.imp (fun t' => by rw [hg]; exact id)
        · simp [tokStep, hg]
        · refine ⟨by rw [h.line]; simp, ?_, ?_⟩
          · simp only []; rw [byteLen_append, h.s1]
          · simp only []; rw [byteLen_append, h.s1]; simp [Str.byteLen, size_quote]
        · simp [hg, tokAbs]
      · by_cases hw : isAsciiWhitespace c = true
        · by_cases hc : cur = []
          · refine go { t with s0 := t.s1 + c.utf8Size, s1 := t.s1 + c.utf8Size } (done ++ cur ++ [c]) [] ?_ ?_ ?_
              |>.imp (fun t' => by rw [hg]; exact id)
            · have : ¬ (t.s0 ≠ t.s1) := fun hx => (hne.1 hx) hc
              simp [tokStep, hg, hq, hw, this]
            · exact tokRel_move h rfl
            · simp only [hg]
              rw [tokAbs]
              simp only [hq, hw, hc, if_false, if_true, List.nil_append]
              cases t.esc <;> (try rfl)
              rcases rest with _ | ⟨d, rest⟩ <;> simp [tokAbs]
          · refine go { t with tokens := t.tokens ++ [cur], s0 := t.s1 + c.utf8Size, s1 := t.s1 + c.utf8Size }
              (done ++ cur ++ [c]) [] ?_ ?_ ?_ |>.imp (fun t' => by rw [hg]; exact id)
            · have : t.s0 ≠ t.s1 := hne.2 hc
              simp [tokStep, hg, hq, hw, this, hsl, bind, Except.bind]
            · exact tokRel_move h rfl
            · simp only [hg]
              rw [tokAbs]
              simp only [hq, hw, hc, if_false, if_true, List.append_assoc]
              congr 1
              congr 1
              rcases rest with _ | ⟨d, rest⟩ <;> simp [tokAbs]
        · refine go { t with s1 := t.s1 + c.utf8Size } done (cur ++ [c]) ?_ ?_ ?_
            |>.imp (fun t' => by rw [hg]; exact id)
          · simp [tokStep, hg, hq, hw]
          · exact tokRel_keep (g := t.gobble) (esc := t.esc) h rfl
          · simp only [hg]
            rw [tokAbs]
            simp only [hq, hw, if_false]
            rcases rest with _ | ⟨d, rest⟩ <;> simp [tokAbs]
    · -- inside quotes
      by_cases h1 : c = '\\' ∧ t.esc = true
      · refine go { t with esc := false, s1 := t.s1 + 1 } done (cur ++ [c]) ?_ ?_ ?_
          |>.imp (fun t' => by rw [hg]; exact id)
        · simp [tokStep, hg, h1]
        · exact tokRel_keep (g := t.gobble) h (by rw [h1.1, size_backslash])
        · simp [hg, tokAbs, h1]
      · by_cases h2 : c = '"' ∧ t.esc = true
        · refine go { t with esc := false, s1 := t.s1 + 1 } done (cur ++ [c]) ?_ ?_ ?_
            |>.imp (fun t' => by rw [hg]; exact id)
          · simp [tokStep, hg, h1, h2]
          · exact tokRel_keep (g := t.gobble) h (by rw [h2.1, size_quote])
          · simp [hg, tokAbs, h1, h2]
        · by_cases h3 : c = '\\'
          · refine go { t with esc := true, s1 := t.s1 + 1 } done (cur ++ [c]) ?_ ?_ ?_
              |>.imp (fun t' => by rw [hg]; exact id)
            · unfold tokStep; rw [if_pos hg, if_neg h1, if_neg h2, if_pos h3]
            · exact tokRel_keep (g := t.gobble) h (by rw [h3, size_backslash])
            · simp only [hg]; rw [tokAbs, if_neg h1, if_neg h2, if_pos h3]
          · by_cases h4 : c = '"'
            · refine go { tokens := t.tokens ++ [cur], s0 := t.s1 + c.utf8Size, s1 := t.s1 + c.utf8Size,
                          gobble := false, esc := false } (done ++ cur ++ [c]) [] ?_ ?_ ?_
                |>.imp (fun t' => by rw [hg]; exact id)
              · unfold tokStep; rw [if_pos hg, if_neg h1, if_neg h2, if_neg h3, if_pos h4]
                simp [hsl, bind, Except.bind]
              · exact tokRel_move h rfl
              · simp only [hg]; rw [tokAbs, if_neg h1, if_neg h2, if_neg h3, if_pos h4]; simp
            · refine go { t with esc := false, s1 := t.s1 + c.utf8Size } done (cur ++ [c]) ?_ ?_ ?_
                |>.imp (fun t' => by rw [hg]; exact id)
              · unfold tokStep; rw [if_pos hg, if_neg h1, if_neg h2, if_neg h3, if_neg h4]
              · exact tokRel_keep (g := t.gobble) h rfl
              · simp only [hg]; rw [tokAbs, if_neg h1, if_neg h2, if_neg h3, if_neg h4]

theorem parseTokens_eq (line : Str) : parseTokens line = .ok (tokAbs line [] false false) := by
  obtain ⟨t', h1, done, cur, h2, h3⟩ := tokLoop_abs line line [] [] {} ⟨by simp, rfl, rfl⟩
  obtain ⟨hne, hsl⟩ := tokRel_span h2
  unfold parseTokens
  simp only [h1, bind, Except.bind]
  simp only [List.nil_append] at h3
  by_cases hc : cur = []
  · rw [if_neg (fun h => hne.1 h hc)]
    simp only [hc, if_true, List.append_nil] at h3
    rw [h3]
  · rw [if_pos (hne.2 hc), hsl]
    simp only [hc, if_false] at h3
    simp [h3]

theorem replace2_quote (x y : Char) (to s : Str) (hx : x ≠ '"') :
    ∃ r, Str.replace2 x y to ('"' :: s) = '"' :: r := by
  rcases s with _ | ⟨b, s⟩
  · exact ⟨[], rfl⟩
  · refine ⟨Str.replace2 x y to (b :: s), ?_⟩
    rw [Str.replace2, if_neg (fun h => hx h.1.symm)]

theorem ok_ite {α} {p : Prop} [Decidable p] {a b : Rs α} (ha : p → ∃ x, a = .ok x) (hb : ¬ p → ∃ x, b = .ok x) :
    ∃ x, (if p then a else b) = .ok x := by
  by_cases h : p
  · rw [if_pos h]; exact ha h
  · rw [if_neg h]; exact hb h

theorem tokenBytes_ok (tok : Str) : ∃ bs, tokenBytes tok = .ok bs := by
  unfold tokenBytes
  iterate 10 refine ok_ite (fun _ => ⟨_, rfl⟩) (fun _ => ?_)
  refine ok_ite (fun h => ?_) (fun _ => ok_ite (fun h => ?_) (fun _ => ?_))
  · obtain ⟨r, hr⟩ : ∃ r, tok = '0' :: 'x' :: r := by
      rcases tok with _ | ⟨a, _ | ⟨b, r⟩⟩ <;> simp [Str.startsWith, hexPrefix, List.isPrefixOf] at h
      exact ⟨r, by rw [h.1, h.2]⟩
    have : tok.sliceFrom 2 = .ok r := by
      rw [hr]; exact sliceFrom_mid ['0', 'x'] r
    simp [this, bind, Except.bind]
  · obtain ⟨r, hr⟩ : ∃ r, tok = '"' :: r := by
      rcases tok with _ | ⟨a, r⟩ <;> simp [Str.startsWith, List.isPrefixOf] at h
      exact ⟨r, by rw [h]⟩
    obtain ⟨r1, h1⟩ := replace2_quote '\\' '\\' ['\\'] r (by decide)
    obtain ⟨r2, h2⟩ := replace2_quote '\\' '"' ['"'] r1 (by decide)
    have : Str.sliceFrom ('"' :: r2) 1 = .ok r2 := sliceFrom_mid ['"'] r2
    simp [hr, h1, h2, this, bind, Except.bind]
  · split <;> exact ⟨_, rfl⟩

theorem tokensBytes_ok (ts : List Str) : ∃ bs, tokensBytes ts = .ok bs := by
  induction ts with
  | nil => exact ⟨_, rfl⟩
  | cons t ts ih =>
    obtain ⟨a, ha⟩ := tokenBytes_ok t
    obtain ⟨b, hb⟩ := ih
    exact ⟨a ++ b, by simp [tokensBytes, ha, hb, bind, Except.bind]⟩

theorem lineBytes_ok (l : Str) : ∃ bs, lineBytes l = .ok bs := by
  unfold lineBytes
  split
  · exact ⟨_, rfl⟩
  · simp only [parseTokens_eq, bind, Except.bind]; exact tokensBytes_ok _

theorem linesBytes_ok (ls : List Str) : ∃ bs, linesBytes ls = .ok bs := by
  induction ls with
  | nil => exact ⟨_, rfl⟩
  | cons l ls ih =>
    obtain ⟨a, ha⟩ := lineBytes_ok l
    obtain ⟨b, hb⟩ := ih
    exact ⟨a ++ b, by simp [linesBytes, ha, hb, bind, Except.bind]⟩

end Thermal
