import Verif.Proofs.Canvas
/-
Rotations, flips and margins of a canvas.
-/
namespace Thermal
open Spec

variable {α : Type}

theorem forRange_ind {σ : Type} {n : Nat} {s s' : σ} {body : σ → Nat → Rs σ} (I : Nat → σ → Prop) (h0 : I 0 s)
    (hstep : ∀ i s s', i < n → I i s → body s i = .ok s' → I (i + 1) s') (h : forRange n s body = .ok s') : I n s' := by
  induction n generalizing s' with
  | zero => have h : (.ok s : Rs σ) = .ok s' := h
            rw [ok_ok] at h; subst h; exact h0
  | succ n ih =>
    rw [forRange_succ] at h
    obtain ⟨t, h1, h2⟩ := h
    exact hstep n t s' (by omega) (ih (fun i s s' hi => hstep i s s' (by omega)) h1) h2

namespace Canvas

/-! ### Rotations -/

theorem rotate90_shows {c : Canvas} (hr : c.Rect) : ∃ px, c.rotate90 = .ok { c with
      bytes := px
      width := c.getHeight } ∧ Shows px c.getHeight c.width (fun x y => c.dot y (c.getHeight - 1 - x)) := by
  obtain ⟨r, h1, h2⟩ := rot90_loop hr.shows RGBA.blank
  refine ⟨r, ?_, h2⟩
  unfold rotate90
  dsimp only
  rw [h1]; rfl

theorem rotate180_shows {c : Canvas} (hr : c.Rect) : ∃ px, c.rotate180 = .ok { c with bytes := px } ∧
      Shows px c.width c.getHeight (fun x y => c.dot (c.width - 1 - x) (c.getHeight - 1 - y)) := by
  obtain ⟨r, h1, h2⟩ := rot180_loop hr.shows RGBA.blank
  refine ⟨r, ?_, h2⟩
  unfold rotate180
  dsimp only
  rw [h1]; rfl

theorem rotate270_shows {c : Canvas} (hr : c.Rect) : ∃ px, c.rotate270 = .ok { c with
      bytes := px
      width := c.getHeight } ∧ Shows px c.getHeight c.width (fun x y => c.dot (c.width - 1 - y) x) := by
  obtain ⟨r, h1, h2⟩ := rot270_loop hr.shows RGBA.blank
  refine ⟨r, ?_, h2⟩
  unfold rotate270
  dsimp only
  rw [h1]; rfl

/-! ### Flipping -/

theorem swapIdx_eq {l r : List RGBA} {a b : Nat} (h : swapIdx l a b = .ok r) :
    a < l.length ∧ b < l.length ∧ r.length = l.length ∧ ∀ k : Nat, r[k]? = if k = b then l[a]? else if k = a then l[b]? else l[k]? := by
  simp only [swapIdx, bind_ok] at h
  obtain ⟨p, hp, q, hq, l1, h1, h2⟩ := h
  have hp := idx_eq hp
  have hq := idx_eq hq
  obtain ⟨ha, e1⟩ := setIdx_eq h1
  obtain ⟨hb, e2⟩ := setIdx_eq h2
  have hl : l1.length = l.length := by rw [e1]; simp
  refine ⟨ha, by omega, by rw [e2]; simp [hl], fun k => ?_⟩
  rw [e2]
  simp only [applyW_cons, applyW_nil, List.getElem?_modify]
  by_cases hkb : k = b
  · subst hkb
    rw [if_pos rfl, hp]
    have : k < l1.length := hb
    simp [this]
  · rw [if_neg hkb]
    have : ¬ b = k := fun h => hkb h.symm
    simp only [this, if_false]
    rw [e1]
    simp only [applyW_cons, applyW_nil, List.getElem?_modify]
    by_cases hka : k = a
    · subst hka
      rw [if_pos rfl, hq]
      simp [ha]
    · rw [if_neg hka]
      have : ¬ a = k := fun h => hka h.symm
      simp [this]

theorem swapRows_shows {px r : List RGBA} {w h : Nat} {f : Nat → Nat → RGBA} (hs : Shows px w h f)
    (hr : swapRows px w h = .ok r) : Shows r w h (fun x y => f x (h - 1 - y)) := by
  have key := forRange_ind (n := h / 2) (s := px) (s' := r)
    (I := fun i px => Shows px w h (fun x y => if y < i ∨ h - i ≤ y then f x (h - 1 - y) else f x y))
    (Thermal.Shows.of_get hs fun x y _ hy => by rw [if_neg (by omega)]) ?_ hr
  · refine Thermal.Shows.of_get key fun x y hx hy => ?_
    by_cases hc : y < h / 2 ∨ h - h / 2 ≤ y
    · rw [if_pos hc]
    · rw [if_neg hc]; congr 1; omega
  · intro i s s' hi hI hb
    have inner := forRange_ind (n := w) (s := s) (s' := s')
      (I := fun j px => Shows px w h (fun x y => if (y = i ∨ y = h - 1 - i) ∧ x < j then f x (h - 1 - y)
        else if y < i ∨ h - i ≤ y then f x (h - 1 - y) else f x y))
      (Thermal.Shows.of_get hI fun x y _ _ => by rw [if_neg (show ¬ ((y = i ∨ y = h - 1 - i) ∧ x < 0) by omega)]) ?_ hb
    · refine Thermal.Shows.of_get inner fun x y hx hy => ?_
      by_cases hc : y = i ∨ y = h - 1 - i
      · rw [if_pos ⟨hc, hx⟩, if_pos (by omega)]
      · rw [if_neg (fun h => hc h.1)]
        by_cases hd : y < i ∨ h - i ≤ y
        · rw [if_pos hd, if_pos (by omega)]
        · rw [if_neg hd, if_neg (by omega)]
    · intro j t t' hj hJ hsw
      obtain ⟨_, _, e3, e4⟩ := swapIdx_eq hsw
      have hneg : h - i - 1 = h - 1 - i := by omega
      rw [hneg] at e4
      refine ⟨by rw [e3, hJ.1], fun x y hx hy => ?_⟩
      have hia : i < h := by omega
      have hib : h - 1 - i < h := by omega
      have key2 : ∀ X Y, X < w → (Y * w + X = i * w + j ↔ Y = i ∧ X = j) := fun X Y hX => by
        constructor
        · intro he; exact rm_inj hX hj he
        · rintro ⟨rfl, rfl⟩; rfl
      have key3 : ∀ X Y, X < w → (Y * w + X = (h - 1 - i) * w + j ↔ Y = h - 1 - i ∧ X = j) := fun X Y hX => by
        constructor
        · intro he; exact rm_inj hX hj he
        · rintro ⟨rfl, rfl⟩; rfl
      rw [e4]
      by_cases h1 : y = h - 1 - i ∧ x = j
      · rw [if_pos ((key3 x y hx).2 h1), hJ.2 j i hj hia]
        obtain ⟨rfl, rfl⟩ := h1
        congr 1
        dsimp only
        rw [if_neg (by omega), if_neg (by omega), if_pos (by omega)]
        congr 1; omega
      · rw [if_neg (fun hc => h1 ((key3 x y hx).1 hc))]
        by_cases h2 : y = i ∧ x = j
        · rw [if_pos ((key2 x y hx).2 h2), hJ.2 j (h - 1 - i) hj hib]
          obtain ⟨rfl, rfl⟩ := h2
          congr 1
          dsimp only
          rw [if_neg (by omega), if_neg (by omega), if_pos (by omega)]
        · rw [if_neg (fun hc => h2 ((key2 x y hx).1 hc)), hJ.2 x y hx hy]
          congr 1
          dsimp only
          by_cases h3 : (y = i ∨ y = h - 1 - i) ∧ x < j
          · rw [if_pos h3, if_pos (show (y = i ∨ y = h - 1 - i) ∧ x < j + 1 by omega)]
          · rw [if_neg h3, if_neg (show ¬ ((y = i ∨ y = h - 1 - i) ∧ x < j + 1) by omega)]

theorem collect_shows {c : Canvas} {x y w h H : Nat} {f : Nat → Nat → RGBA} {sub : List RGBA} (hs : Shows c.bytes c.width H f)
    (hx : x + w ≤ c.width) (hy : y + h ≤ H) (hc : forRange h [] (c.collectRow x y w) = .ok sub) :
    Shows sub w h (fun dx dy => f (x + dx) (y + dy)) := by
  have hbody : c.collectRow x y w = fun acc k => (mulU32 (y + k) c.width >>= fun r => addU32 r x >>= fun s => slice c.bytes s (s + w)) >>=
      fun r => pure (acc ++ r) := by
    funext acc k
    simp only [collectRow, bind_assoc]
  rw [hbody] at hc
  have hrow : ∀ k r, (mulU32 (y + k) c.width >>= fun r => addU32 r x >>= fun s => slice c.bytes s (s + w)) = .ok r →
      r.length = w ∧ ∀ dx, dx < w → r[dx]? = c.bytes[(y + k) * c.width + (x + dx)]? := by
    intro k r hr
    simp only [bind_ok, mulU32_ok, addU32_ok] at hr
    obtain ⟨_, ⟨_, rfl⟩, _, ⟨_, rfl⟩, hr⟩ := hr
    obtain ⟨_, h2, h3, h4⟩ := slice_eq hr
    exact ⟨by omega, fun dx hdx => by rw [h4 dx (by omega), Nat.add_assoc]⟩
  obtain ⟨hl, hg⟩ := forRange_rows (fun y r hr => (hrow y r hr).1) hc
  refine ⟨by rw [hl, Nat.mul_comm], fun dx dy hdx hdy => ?_⟩
  obtain ⟨r, hr, h5⟩ := hg dy hdy
  rw [h5 dx hdx, (hrow dy r hr).2 dx hdx, hs.2 _ _ (by omega) (by omega)]

/-! ### Margins -/

/-- A picture of width `w` with `left` columns of paper before it and paper after it. -/
def centred (f : Nat → Nat → RGBA) (left w : Nat) (paper : RGBA) (x y : Nat) : RGBA :=
  if left ≤ x ∧ x < left + w then f (x - left) y else paper

theorem insertAt_append (a b xs : List RGBA) : insertAt (a ++ b) a.length xs = .ok (a ++ xs ++ b) := by
  unfold insertAt
  rw [if_pos (by rw [List.length_append]; omega), List.take_left, List.drop_left]

theorem expandToWidth_shows {c : Canvas} {n : Nat} (hr : c.Rect) (hn : c.width ≤ n) :
    ∃ px, c.expandToWidth n = .ok { c with
        bytes := px
        width := n } ∧ Shows px n c.getHeight (centred c.dot ((n - c.width) / 2) c.width c.paperColor) := by
  have hs := hr.shows
  have hlen : c.bytes.length ≤ c.getHeight * n := by
    rw [hs.1, Nat.mul_comm]; exact Nat.mul_le_mul_left _ hn
  unfold expandToWidth
  rw [if_neg (by omega)]
  simp only []
  have hsub : subU (c.getHeight * n) c.bytes.length = .ok (c.getHeight * n - c.bytes.length) := by
    unfold subU; rw [if_pos hlen]
  rw [hsub]
  generalize hL : (n - c.width) / 2 = left
  generalize hR : n - (left + c.width) = right
  have hLR : left + c.width + right = n := by omega
  have hloop := forRange_inv (n := c.getHeight) (s := (c.bytes, 0))
    (body := marginRow (List.replicate left c.paperColor) (List.replicate right c.paperColor) c.width)
    (I := fun k s => s.2 = k * n ∧ ∃ A, s.1 = A ++ c.bytes.drop (k * c.width) ∧ Shows A n k (centred c.dot left c.width c.paperColor))
    ⟨by simp, [], by simp, by simp, fun x y _ hy => absurd hy (by omega)⟩ ?_
  · obtain ⟨⟨px, i⟩, h1, _, A, e1, e2⟩ := hloop
    have hd : c.bytes.drop (c.getHeight * c.width) = [] := by
      rw [List.drop_eq_nil_iff, hs.1, Nat.mul_comm]; exact Nat.le_refl _
    dsimp only at e1
    rw [hd, List.append_nil] at e1
    refine ⟨px, ?_, by rw [e1]; exact e2⟩
    show (forRange c.getHeight (c.bytes, 0) _ >>= _) = _
    rw [h1]; rfl
  · rintro k ⟨s, i⟩ hk ⟨rfl, A, e1, e2⟩
    dsimp only at e1
    subst e1
    have hAl : A.length = k * n := by rw [e2.1, Nat.mul_comm]
    have hrow : c.bytes.drop (k * c.width) = (c.bytes.drop (k * c.width)).take c.width ++ c.bytes.drop ((k + 1) * c.width) := by
      rw [Nat.add_mul, Nat.one_mul, ← List.drop_drop, List.take_append_drop]
    have hrl : ((c.bytes.drop (k * c.width)).take c.width).length = c.width := by
      rw [List.length_take, List.length_drop, hs.1]
      have : (k + 1) * c.width ≤ c.width * c.getHeight := by rw [Nat.mul_comm c.width]; exact Nat.mul_le_mul_right _ hk
      rw [Nat.add_mul] at this; omega
    have hrg : ∀ x, x < c.width → ((c.bytes.drop (k * c.width)).take c.width)[x]? = some (c.dot x k) := by
      intro x hx
      rw [List.getElem?_take, if_pos hx, List.getElem?_drop]
      exact hs.2 x k hx hk
    generalize hrowv : (c.bytes.drop (k * c.width)).take c.width = row at hrow hrl hrg
    generalize hrest : c.bytes.drop ((k + 1) * c.width) = rest at hrow
    let lft := List.replicate left c.paperColor
    let rgt := List.replicate right c.paperColor
    have step : marginRow lft rgt c.width (A ++ c.bytes.drop (k * c.width), k * n) k =
        .ok (A ++ lft ++ row ++ rgt ++ rest, k * n + lft.length + c.width + rgt.length) := by
      unfold marginRow
      dsimp only
      rw [← hAl, insertAt_append, hrow]
      show (insertAt (A ++ lft ++ (row ++ rest)) (A.length + lft.length + c.width) rgt >>= _) = _
      have e : A ++ lft ++ (row ++ rest) = (A ++ lft ++ row) ++ rest := by simp [List.append_assoc]
      have e' : A.length + lft.length + c.width = (A ++ lft ++ row).length := by simp [hrl, Nat.add_assoc]
      rw [e, e', insertAt_append]
      rfl
    refine ⟨_, step, ?_, A ++ lft ++ row ++ rgt, ?_, ?_⟩
    · dsimp only; simp only [lft, rgt, List.length_replicate]; rw [Nat.add_mul, Nat.one_mul]; omega
    · rfl
    · refine ⟨?_, fun x y hx hy => ?_⟩
      · simp only [List.length_append, hAl, hrl, lft, rgt, List.length_replicate]
        rw [Nat.mul_comm n, Nat.add_mul, Nat.one_mul]; omega
      · by_cases hyk : y < k
        · have : y * n + x < A.length := by rw [hAl, Nat.mul_comm k n]; exact rm_lt hx hyk
          rw [List.append_assoc, List.append_assoc, List.getElem?_append_left this, e2.2 x y hx hyk]
        · have hy' : y = k := by omega
          subst hy'
          rw [List.append_assoc, List.append_assoc, List.getElem?_append_right (by omega), hAl, Nat.add_sub_cancel_left]
          unfold centred
          by_cases h3 : x < left
          · rw [if_neg (by omega), List.getElem?_append_left (by simp [lft]; exact h3)]
            simp [lft, h3]
          · rw [List.getElem?_append_right (by simp [lft]; omega)]
            simp only [lft, List.length_replicate]
            by_cases h4 : x < left + c.width
            · rw [if_pos ⟨by omega, h4⟩, List.getElem?_append_left (by rw [hrl]; omega), hrg _ (by omega)]
            · rw [if_neg (by omega), List.getElem?_append_right (by rw [hrl]; omega), hrl]
              simp only [rgt, List.getElem?_replicate]
              rw [if_pos (by omega)]

end Canvas
end Thermal
