import Verif.Model.Canvas
import Verif.Spec.Canvas
import Verif.Proofs.GridLoop
import Verif.Proofs.Pen
/-
Facts about the operations on a canvas.
-/
namespace Thermal
open Spec

variable {α : Type}

/-! ### Loops that append rows -/

theorem setIdx_eq {l l' : List α} {i : Nat} {x : α} (h : setIdx l i x = .ok l') : i < l.length ∧ l' = applyW l [(i, fun _ => x)] := by
  by_cases hi : i < l.length
  · rw [setIdx_ok x hi, ok_ok] at h; exact ⟨hi, h.symm⟩
  · unfold setIdx at h; rw [if_neg hi] at h; cases h

theorem idx_eq {l : List α} {i : Nat} {x : α} (h : idx l i = .ok x) : l[i]? = some x := by
  unfold idx at h
  split at h
  · rename_i y hy; rw [ok_ok] at h; rw [hy, h]
  · cases h

theorem slice_eq {l r : List α} {a b : Nat} (h : slice l a b = .ok r) :
    a ≤ b ∧ b ≤ l.length ∧ r.length = b - a ∧ ∀ x, x < b - a → r[x]? = l[a + x]? := by
  unfold slice at h
  split at h
  · rename_i hab
    rw [ok_ok] at h; subst h
    refine ⟨hab.1, hab.2, ?_, fun x hx => ?_⟩
    · rw [List.length_drop, List.length_take]; omega
    · rw [List.getElem?_drop, List.getElem?_take, if_pos (by omega)]
  · cases h

theorem forRange_succ {σ : Type} {n : Nat} {s s' : σ} {body : σ → Nat → Rs σ} :
    forRange (n + 1) s body = .ok s' ↔ ∃ t, forRange n s body = .ok t ∧ body t n = .ok s' := by
  unfold forRange
  rw [List.range_succ, List.foldlM_append]
  constructor
  · intro h
    rw [bind_ok] at h
    obtain ⟨t, h1, h2⟩ := h
    simp only [List.foldlM_cons, List.foldlM_nil, bind_ok, pure_ok] at h2
    obtain ⟨u, h2, rfl⟩ := h2
    exact ⟨t, h1, h2⟩
  · rintro ⟨t, h1, h2⟩
    rw [bind_ok]
    exact ⟨t, h1, by simp only [List.foldlM_cons, List.foldlM_nil, bind_ok, pure_ok]; exact ⟨s', h2, rfl⟩⟩

theorem forRange_rows {n k : Nat} {row : Nat → Rs (List α)} {res : List α} (hk : ∀ y r, row y = .ok r → r.length = k)
    (h : forRange n [] (fun acc y => do let r ← row y; pure (acc ++ r)) = .ok res) :
    res.length = n * k ∧ ∀ y, y < n → ∃ r, row y = .ok r ∧ ∀ x, x < k → res[y * k + x]? = r[x]? := by
  induction n generalizing res with
  | zero => have h : (.ok [] : Rs (List α)) = .ok res := h
            rw [ok_ok] at h; subst h; exact ⟨by simp, fun y hy => absurd hy (by omega)⟩
  | succ n ih =>
    rw [forRange_succ] at h
    obtain ⟨t, h1, h2⟩ := h
    simp only [bind_ok, pure_ok] at h2
    obtain ⟨r, h2, rfl⟩ := h2
    obtain ⟨hl, hg⟩ := ih h1
    have hr := hk n r h2
    refine ⟨by rw [List.length_append, hl, hr, Nat.add_mul, Nat.one_mul], fun y hy => ?_⟩
    by_cases hyn : y < n
    · obtain ⟨r', e1, e2⟩ := hg y hyn
      refine ⟨r', e1, fun x hx => ?_⟩
      have : y * k + x < t.length := by rw [hl, Nat.mul_comm n k]; exact rm_lt hx hyn
      rw [List.getElem?_append_left this, e2 x hx]
    · have : y = n := by omega
      subst this
      refine ⟨r, h2, fun x hx => ?_⟩
      rw [List.getElem?_append_right (by rw [hl]; omega), hl]
      congr 1; omega

namespace Canvas

/-- The canvas consists of complete rows. -/
def Rect (c : Canvas) : Prop := ∃ h, c.bytes.length = c.width * h

/-- Every dot is opaque. -/
def Opaque (c : Canvas) : Prop := ∀ p ∈ c.bytes, p.a = 255

theorem getHeight_of {c : Canvas} {h : Nat} (hw : 0 < c.width) (hl : c.bytes.length = c.width * h) : c.getHeight = h := by
  unfold getHeight
  rw [if_neg (by omega), hl, Nat.mul_div_cancel_left _ hw]

theorem Rect.length {c : Canvas} (hc : c.Rect) : c.bytes.length = c.width * c.getHeight := by
  obtain ⟨h, hl⟩ := hc
  unfold getHeight
  by_cases hw : c.width = 0
  · rw [if_pos hw, hl, hw]; simp
  · rw [if_neg hw, hl, Nat.mul_div_cancel_left _ (by omega)]

/-- The picture a canvas of complete rows shows. -/
def dot (c : Canvas) (x y : Nat) : RGBA := c.bytes.getD (y * c.width + x) RGBA.blank

theorem Rect.shows {c : Canvas} (hc : c.Rect) : Shows c.bytes c.width c.getHeight c.dot := by
  refine ⟨hc.length, fun x y hx hy => ?_⟩
  have : y * c.width + x < c.bytes.length := by rw [hc.length]; exact rm_lt hx hy
  rw [List.getElem?_eq_getElem this]
  simp [dot, this]

theorem rect_of_shows {c : Canvas} {h : Nat} {f : Nat → Nat → RGBA} (hs : Shows c.bytes c.width h f) : c.Rect := ⟨h, hs.1⟩

/-! ### Growing -/

theorem expandToHeight_shows {c c' : Canvas} {h n : Nat} {f : Nat → Nat → RGBA} (hs : Shows c.bytes c.width h f)
    (he : c.expandToHeight n = .ok c') :
    c' = { c with bytes := c'.bytes } ∧ (0 < c.width → Shows c'.bytes c.width (max h n) (onPaper f h c.paperColor)) ∧ c'.Rect := by
  simp only [expandToHeight, bind_ok, mulU32_ok, pure_ok] at he
  obtain ⟨_, ⟨_, rfl⟩, he⟩ := he
  by_cases hge : c.bytes.length ≥ c.width * n
  · rw [if_pos hge] at he; subst he
    refine ⟨rfl, fun hw => ?_, ⟨h, hs.1⟩⟩
    have hnh : n ≤ h := by rw [hs.1] at hge; exact Nat.le_of_mul_le_mul_left hge hw
    rw [Nat.max_eq_left hnh]
    exact Thermal.Shows.of_get hs fun x y hx hy => by unfold onPaper; rw [if_pos hy]
  · rw [if_neg hge] at he; subst he
    have hlt : h < n := by
      rw [hs.1] at hge
      exact Nat.lt_of_mul_lt_mul_left (by omega : c.width * h < c.width * n)
    have hl : (c.bytes ++ List.replicate (c.width * n - c.bytes.length) c.paperColor).length = c.width * n := by
      rw [List.length_append, List.length_replicate]; omega
    refine ⟨rfl, fun hw => ?_, ⟨n, hl⟩⟩
    rw [Nat.max_eq_right (by omega)]
    refine ⟨hl, fun x y hx hy => ?_⟩
    unfold onPaper
    dsimp only
    by_cases hyh : y < h
    · rw [if_pos hyh, List.getElem?_append_left (by rw [hs.1]; exact rm_lt hx hyh), hs.2 x y hx hyh]
    · rw [if_neg hyh]
      have hge2 : c.bytes.length ≤ y * c.width + x := by
        rw [hs.1, Nat.mul_comm]
        exact Nat.le_trans (Nat.mul_le_mul_right _ (by omega)) (Nat.le_add_right _ _)
      rw [List.getElem?_append_right hge2, List.getElem?_replicate, if_pos]
      have := rm_lt hx hy
      omega

/-! ### Cropping -/

theorem cropPixels_eq {pixels : List RGBA} {w h mw mh : Nat} {ch : Bool} {nw nh : Nat} {px : List RGBA}
    (hc : cropPixels pixels w h mw mh ch = .ok (nw, nh, px)) :
    nw = min w mw ∧ nh = (if ch then min h mh else h) ∧ px.length = nw * nh ∧
      ∀ x y, x < nw → y < nh → px[y * nw + x]? = pixels[y * w + x]? ∧ y * w + x < pixels.length := by
  simp only [cropPixels, bind_ok, mulU32_ok, pure_ok] at hc
  obtain ⟨_, _, res, hres, he⟩ := hc
  have e1 := congrArg Prod.fst he
  have e2 := congrArg (fun p => p.2.1) he
  have e3 := congrArg (fun p => p.2.2) he
  dsimp only at e1 e2 e3
  rw [e1, e2] at hres
  subst e3
  have hbody : cropRow pixels w nw = fun acc y => (mulU32 y w >>= fun start => slice pixels start (start + nw)) >>=
      fun r => pure (acc ++ r) := by
    funext acc y
    simp only [cropRow, bind_assoc]
  rw [hbody] at hres
  have hrow : ∀ y r, (mulU32 y w >>= fun start => slice pixels start (start + nw)) = .ok r →
      r.length = nw ∧ y * w + nw ≤ pixels.length ∧ ∀ x, x < nw → r[x]? = pixels[y * w + x]? := by
    intro y r hr
    simp only [bind_ok, mulU32_ok] at hr
    obtain ⟨_, ⟨_, rfl⟩, hr⟩ := hr
    obtain ⟨_, h2, h3, h4⟩ := slice_eq hr
    exact ⟨by omega, h2, fun x hx => h4 x (by omega)⟩
  obtain ⟨hl, hg⟩ := forRange_rows (fun y r hr => (hrow y r hr).1) hres
  refine ⟨?_, ?_, by rw [hl, Nat.mul_comm], fun x y hx hy => ?_⟩
  · rw [← e1]; split <;> omega
  · rw [← e2]; cases ch
    · rfl
    · show (if h > mh then mh else h) = min h mh
      split <;> omega
  · obtain ⟨r, hr, h5⟩ := hg y hy
    obtain ⟨_, h6, h7⟩ := hrow y r hr
    exact ⟨by rw [h5 x hx, h7 x hx], by omega⟩

/-- What is drawn of `pixels`: the columns that fit and, when the canvas may not grow, rows that fit. -/
theorem fitPixels_eq {c : Canvas} {x y w h : Nat} {pixels : List RGBA} {fw fh : Nat} {px : List RGBA} (hx : x < c.width)
    (hlen : pixels.length ≤ w * h) (hf : c.fitPixels x y w h pixels = .ok (fw, fh, px)) :
    fw = min w (c.width - x) ∧ fh ≤ h ∧ (c.autoGrow = true → fh = h) ∧
      (c.autoGrow = false → fh = h ∨ fh = min h (c.getHeight - y)) ∧
      (c.autoGrow = false → y + w > c.getHeight ∨ x + w > c.width → fh = min h (c.getHeight - y)) ∧
      px.length ≤ fw * fh ∧ (pixels.length = w * h → px.length = fw * fh) ∧
      ∀ dx dy, dx < fw → dy < fh → px[dy * fw + dx]? = pixels[dy * w + dx]? := by
  simp only [fitPixels, bind_ok, addU32_ok] at hf
  obtain ⟨_, ⟨_, rfl⟩, cropH, hch, hf⟩ := hf
  have hch' : (c.autoGrow = true → cropH = false) ∧ (c.autoGrow = false → cropH = decide (y + w > c.getHeight)) := by
    unfold needsCropH at hch
    cases hg : c.autoGrow
    · simp only [hg, Bool.false_eq_true, if_false, bind_ok, addU32_ok, pure_ok] at hch
      obtain ⟨_, ⟨_, rfl⟩, rfl⟩ := hch
      exact ⟨by simp, fun _ => rfl⟩
    · simp only [hg, if_true, ok_ok] at hch
      exact ⟨fun _ => hch.symm, by simp⟩
  by_cases hcrop : (decide (x + w > c.width) || cropH) = true
  · rw [if_pos hcrop] at hf
    obtain ⟨e1, e2, e3, e4⟩ := cropPixels_eq hf
    have e2' : c.autoGrow = false → fh = min h (c.getHeight - y) := by
      intro hg
      rw [e2, hg]
      simp only [Bool.not_false, if_true]
      split <;> omega
    refine ⟨e1, ?_, ?_, fun hg => .inr (e2' hg), fun hg _ => e2' hg, by omega, fun _ => e3, fun dx dy hdx hdy => (e4 dx dy hdx hdy).1⟩
    · rw [e2]; split <;> omega
    · intro hg; rw [e2, hg]; rfl
  · rw [if_neg hcrop, pure_ok] at hf
    simp only [Prod.mk.injEq] at hf
    obtain ⟨rfl, rfl, rfl⟩ := hf
    have hno : ¬ x + w > c.width ∧ cropH = false := by
      cases cropH
      · simp only [Bool.or_false, decide_eq_true_eq] at hcrop; exact ⟨hcrop, rfl⟩
      · simp at hcrop
    refine ⟨by omega, Nat.le_refl _, fun _ => rfl, fun _ => .inl rfl, ?_, hlen, id, fun _ _ _ _ => rfl⟩
    intro hg hor
    have := hch'.2 hg
    rw [hno.2] at this
    have : ¬ (y + w > c.getHeight) := by
      intro hc; rw [decide_eq_true hc] at this; cases this
    rcases hor with hor | hor
    · exact absurd hor this
    · exact absurd hor hno.1

/-! ### Putting pixels -/

/-- The updates of the pixel loop. -/
def putUpd (op : RGBA → RGBA → RGBA) (W x y fw : Nat) (m : RGBA × Nat) : Upd RGBA :=
  ((y + m.2 / fw) * W + (x + m.2 % fw), fun o => op o m.1)

theorem putLoop_eq {op : RGBA → RGBA → RGBA} {W x y fw : Nat} {px : List RGBA} {k : Nat} {bytes r : List RGBA} (hfw : 0 < fw)
    (h : putLoop op W x fw px (x + k % fw) (y + k / fw) bytes = .ok r) :
    r = applyW bytes ((px.zipIdx k).map (putUpd op W x y fw)) := by
  induction px generalizing k bytes with
  | nil => simp only [putLoop, ok_ok] at h; subst h; rfl
  | cons p rest ih =>
    simp only [putLoop, bind_ok, mulU32_ok, addU32_ok, subU_ok] at h
    obtain ⟨_, ⟨_, rfl⟩, _, ⟨_, rfl⟩, old, hold, b1, hb1, _, ⟨_, rfl⟩, last, ⟨hl1, hl2⟩, h⟩ := h
    obtain ⟨hi, hb⟩ := setIdx_eq hb1
    have hold := idx_eq hold
    have hb' : b1 = applyW bytes [putUpd op W x y fw (p, k)] := by
      rw [hb]
      apply List.ext_getElem?
      intro j
      simp only [applyW_cons, applyW_nil, List.getElem?_modify, putUpd]
      by_cases hj : (y + k / fw) * W + (x + k % fw) = j
      · subst hj; rw [hold]; simp
      · simp only [if_neg hj]
    rw [List.zipIdx_cons, List.map_cons, applyW_cons]
    have hb'' : bytes.modify (putUpd op W x y fw (p, k)).1 (putUpd op W x y fw (p, k)).2 = b1 := by rw [hb']; rfl
    rw [hb'']
    have hlt := Nat.mod_lt k hfw
    have hdm := Nat.div_add_mod k fw
    by_cases hlast : x + k % fw = last
    · rw [if_pos hlast, bind_ok] at h
      simp only [addU32_ok] at h
      obtain ⟨_, ⟨_, rfl⟩, h⟩ := h
      apply ih
      have hm : k % fw = fw - 1 := by omega
      have e1 : (k + 1) % fw = 0 := by
        have : k + 1 = fw * (k / fw) + fw := by omega
        rw [this, Nat.mul_add_mod, Nat.mod_self]
      have e2 : (k + 1) / fw = k / fw + 1 := by
        have : k + 1 = fw * (k / fw) + fw := by omega
        rw [this, Nat.mul_add_div hfw, Nat.div_self hfw]
      rw [e1, e2, Nat.add_zero, ← Nat.add_assoc]
      exact h
    · rw [if_neg hlast, bind_ok] at h
      simp only [addU32_ok] at h
      obtain ⟨_, ⟨_, rfl⟩, h⟩ := h
      apply ih
      have hm : k % fw + 1 < fw := by omega
      have e1 : (k + 1) % fw = k % fw + 1 := by
        have : k + 1 = fw * (k / fw) + (k % fw + 1) := by omega
        rw [this, Nat.mul_add_mod, Nat.mod_eq_of_lt hm]
      have e2 : (k + 1) / fw = k / fw := by
        have : k + 1 = fw * (k / fw) + (k % fw + 1) := by omega
        rw [this, Nat.mul_add_div hfw, Nat.div_eq_of_lt hm, Nat.add_zero]
      rw [e1, e2, ← Nat.add_assoc]
      exact h

theorem putPos_inj {W x y fw i j : Nat} (hfw : 0 < fw) (hfit : x + fw ≤ W)
    (h : (y + i / fw) * W + (x + i % fw) = (y + j / fw) * W + (x + j % fw)) : i = j := by
  have hi := Nat.mod_lt i hfw
  have hj := Nat.mod_lt j hfw
  obtain ⟨h1, h2⟩ := rm_inj (by omega) (by omega) h
  have e1 : i / fw = j / fw := by omega
  have e2 : i % fw = j % fw := by omega
  rw [← Nat.div_add_mod i fw, ← Nat.div_add_mod j fw, e1, e2]

/-- The dots after the pixel loop. -/
theorem putLoop_get {op : RGBA → RGBA → RGBA} {W x y fw : Nat} {px : List RGBA} {bytes r : List RGBA} (hfit : x + fw ≤ W)
    (hpx : fw = 0 → px = []) (h : putLoop op W x fw px x y bytes = .ok r) :
    r.length = bytes.length ∧ ∀ X Y, X < W →
      r[Y * W + X]? = bytes[Y * W + X]?.map fun o =>
        if x ≤ X ∧ X < x + fw ∧ y ≤ Y then (px[(Y - y) * fw + (X - x)]?).elim o (op o) else o := by
  by_cases hfw : fw = 0
  · subst hfw
    rw [hpx rfl] at h ⊢
    simp only [putLoop, ok_ok] at h; subst h
    refine ⟨rfl, fun X Y _ => ?_⟩
    have : (fun o : RGBA => if x ≤ X ∧ X < x + 0 ∧ y ≤ Y then (([] : List RGBA)[(Y - y) * 0 + (X - x)]?).elim o (op o) else o) = id := by
      funext o; split <;> simp
    rw [this]; simp
  · have hfw : 0 < fw := by omega
    have h := putLoop_eq (op := op) (W := W) (x := x) (px := px) (bytes := bytes) (r := r) (k := 0) (y := y) hfw (by rw [Nat.zero_mod, Nat.zero_div, Nat.add_zero, Nat.add_zero]; exact h)
    subst h
    refine ⟨applyW_length _ _, fun X Y hX => ?_⟩
    have hmem : ∀ u ∈ (px.zipIdx).map (putUpd op W x y fw), u.1 = Y * W + X →
        ∃ p, px[(Y - y) * fw + (X - x)]? = some p ∧ u.2 = (fun o => op o p) ∧ x ≤ X ∧ X < x + fw ∧ y ≤ Y := by
      intro u hu huj
      rw [List.mem_map] at hu
      obtain ⟨⟨p, i⟩, hm, rfl⟩ := hu
      have hget := List.mem_zipIdx_iff_getElem?.1 hm
      simp only [putUpd] at huj ⊢
      have hi := Nat.mod_lt i hfw
      obtain ⟨h1, h2⟩ := rm_inj (by omega) hX huj
      have : (Y - y) * fw + (X - x) = i := by
        rw [show Y - y = i / fw by rw [← h1]; exact Nat.add_sub_cancel_left .., show X - x = i % fw by omega, Nat.mul_comm]
        exact Nat.div_add_mod i fw
      rw [this]
      exact ⟨p, hget, rfl, by omega, by omega, by rw [← h1]; exact Nat.le_add_right ..⟩
    by_cases hin : x ≤ X ∧ X < x + fw ∧ y ≤ Y
    · cases hp : px[(Y - y) * fw + (X - x)]? with
      | none =>
        rw [applyW_other]
        · simp
        · intro u hu huj
          obtain ⟨p, hp', _⟩ := hmem u hu huj
          rw [hp] at hp'; cases hp'
      | some p =>
        rw [applyW_once (f := fun o => op o p)]
        · congr 1; funext o; rw [if_pos hin]; rfl
        · rw [List.mem_map]
          refine ⟨(p, (Y - y) * fw + (X - x)), List.mem_zipIdx_iff_getElem?.2 hp, ?_⟩
          simp only [putUpd]
          rw [rm_div (by omega), rm_mod (by omega), show y + (Y - y) = Y by omega, show x + (X - x) = X by omega]
        · have e : ((px.zipIdx).map (putUpd op W x y fw)).map (·.1) =
              (List.range' 0 px.length).map (fun i => (y + i / fw) * W + (x + i % fw)) := by
            rw [← List.zipIdx_map_snd, List.map_map, List.map_map]; rfl
          rw [e]
          unfold List.Nodup
          rw [List.pairwise_map]
          exact List.Pairwise.imp (fun hne he => hne (putPos_inj hfw hfit he)) List.nodup_range'
    · rw [applyW_other]
      · simp only [if_neg hin]; simp
      · intro u hu huj
        obtain ⟨_, _, _, hc⟩ := hmem u hu huj
        exact hin hc

/-- How a picture is combined with the canvas. -/
def combine (multiply : Bool) : RGBA → RGBA → RGBA := if multiply then RGBA.multiply else RGBA.blend

/-- When pixels cannot be drawn only a message is added. -/
theorem putPixels_false {c c' : Canvas} {x y w h : Nat} {pixels : List RGBA} {mul : Bool}
    (hp : c.putPixels x y w h pixels mul = .ok (c', false)) : ∃ m, c' = { c with errors := c.errors ++ [m] } := by
  simp only [putPixels, bind_ok, mulU32_ok] at hp
  obtain ⟨_, ⟨_, rfl⟩, hp⟩ := hp
  split at hp
  · rw [pure_ok] at hp; exact ⟨_, (congrArg Prod.fst hp).symm⟩
  · split at hp
    · rw [pure_ok] at hp; exact ⟨_, (congrArg Prod.fst hp).symm⟩
    · simp only [bind_ok, pure_ok] at hp
      obtain ⟨_, _, _, _, _, _, _, _, hp⟩ := hp
      exact absurd (congrArg Prod.snd hp) (by simp)

/-- Drawing `pixels` at `(x, y)`. -/
structure Put (c c' : Canvas) (x y w h fw fh : Nat) (pixels : List RGBA) (mul : Bool) : Prop where
  inside : x < c.width
  lower : c.autoGrow = false → y < c.getHeight
  same : c' = { c with bytes := c'.bytes }
  columns : fw = min w (c.width - x)
  fhle : fh ≤ h
  grow : c.autoGrow = true → fh = h
  locked : c.autoGrow = false → y + w > c.getHeight ∨ x + w > c.width → fh = min h (c.getHeight - y)
  either : c.autoGrow = false → fh = h ∨ fh = min h (c.getHeight - y)
  length : pixels.length ≤ w * h
  rows : c'.bytes.length = c.width * max c.getHeight (y + fh)
  dots : ∀ X Y, X < c.width → Y < max c.getHeight (y + fh) →
    c'.bytes[Y * c.width + X]? = some (
      let o := onPaper c.dot c.getHeight c.paperColor X Y
      if inRect x y fw fh X Y then (pixels[(Y - y) * w + (X - x)]?).elim o (combine mul o) else o)

theorem putPixels_true {c c' : Canvas} {x y w h : Nat} {pixels : List RGBA} {mul : Bool} (hr : c.Rect)
    (hp : c.putPixels x y w h pixels mul = .ok (c', true)) : ∃ fw fh, Put c c' x y w h fw fh pixels mul := by
  simp only [putPixels, bind_ok, mulU32_ok] at hp
  obtain ⟨_, ⟨_, rfl⟩, hp⟩ := hp
  split at hp
  · rw [pure_ok] at hp; exact absurd (congrArg Prod.snd hp) (by simp)
  · rename_i hlen
    split at hp
    · rw [pure_ok] at hp; exact absurd (congrArg Prod.snd hp) (by simp)
    · rename_i hin
      simp only [Bool.or_eq_true, decide_eq_true_eq, Bool.and_eq_true, not_or, not_and, Bool.not_eq_true', Bool.not_eq_false] at hin
      simp only [bind_ok, addU32_ok, pure_ok] at hp
      obtain ⟨⟨fw, fh, px⟩, hf, _, ⟨_, rfl⟩, c1, h1, bytes, h2, hp⟩ := hp
      dsimp only at *
      have hxw : x < c.width := by omega
      obtain ⟨e1, e2, e3, e4, e5, e6, e6', e7⟩ := fitPixels_eq hxw (by omega) hf
      obtain ⟨s1, s2, _⟩ := expandToHeight_shows hr.shows h1
      have s2 := s2 (by omega)
      have hw1 : c1.width = c.width := by rw [s1]
      rw [hw1] at h2
      have h2 : putLoop (combine mul) c.width x fw px x y c1.bytes = .ok bytes := h2
      obtain ⟨g1, g2⟩ := putLoop_get (by omega) (fun h0 => by
        rw [h0, Nat.zero_mul] at e6; exact List.length_eq_zero_iff.1 (by omega)) h2
      have hc' := (congrArg Prod.fst hp).symm
      dsimp only at hc'
      refine ⟨fw, fh, hxw, ?_, ?_, e1, e2, e3, e5, e4, by omega, ?_, ?_⟩
      · intro hg
        have := hin.2
        rw [hg] at this
        simp at this
        exact this
      · rw [hc', s1]
      · rw [hc']; dsimp only; rw [g1, s2.1]
      · intro X Y hX hY
        rw [hc']; dsimp only
        rw [g2 X Y hX, s2.2 X Y hX hY, Option.map_some]
        congr 1
        by_cases hreg : inRect x y fw fh X Y
        · obtain ⟨r1, r2, r3, r4⟩ := hreg
          rw [if_pos (show x ≤ X ∧ X < x + fw ∧ y ≤ Y from ⟨r1, r2, r3⟩), if_pos (show inRect x y fw fh X Y from ⟨r1, r2, r3, r4⟩), e7 (X - x) (Y - y) (by omega) (by omega)]
        · rw [if_neg hreg]
          by_cases hc : x ≤ X ∧ X < x + fw ∧ y ≤ Y
          · rw [if_pos hc]
            have hY : fh ≤ Y - y := by
              unfold inRect at hreg; omega
            rw [List.getElem?_eq_none]
            · rfl
            · refine Nat.le_trans e6 ?_
              rw [Nat.mul_comm]
              exact Nat.le_trans (Nat.mul_le_mul_right _ hY) (Nat.le_add_right _ _)
          · rw [if_neg hc]

end Canvas
end Thermal
