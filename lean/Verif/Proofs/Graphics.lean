import Verif.Proofs.Unpack
import Verif.Proofs.GridLoop
import Verif.Proofs.F32Color
import Mathlib.Tactic.ByContra
/-
Image decoding: columns, scaling, single colour images, merging.
-/
namespace Thermal
open Spec

theorem rotate90_shows {data : List Byte} {w h : Nat} {f : Nat → Nat → Byte} (hd : Shows data w h f) :
    ∃ r, rotate90 data w h = .ok r ∧ Shows r h w (fun x y => f y (h - 1 - x)) := by
  have := rot90_loop hd 0
  unfold rotate90; rw [hd.1]; exact this

theorem flip_shows {data : List Byte} {w h : Nat} {f : Nat → Nat → Byte} (hd : Shows data w h f) :
    ∃ r, flipRightToLeft data w h = .ok r ∧ Shows r w h (fun x y => f (w - 1 - x) y) := by
  have := flip_loop hd 0
  unfold flipRightToLeft; rw [hd.1]; exact this

theorem column_shows {data : List Byte} {w h : Nat} (hl : data.length = rowBytes h * w) :
    ∃ r, columnToBytes data w h = .ok r ∧ Shows r w h (fun x y => dot (columnBit data h x y)) := by
  obtain ⟨r1, h1, s1⟩ := rotate90_shows (unpack_shows data h w hl)
  obtain ⟨r2, h2, s2⟩ := flip_shows s1
  refine ⟨r2, ?_, ?_⟩
  · show (rotate90 (unpackBytes data h w) h w >>= fun rot => flipRightToLeft rot w h) = _
    rw [h1]; exact h2
  · refine Shows.of_get s2 fun x y hx hy => ?_
    show dot (rasterBit data h y (w - 1 - (w - 1 - x))) = _
    rw [show w - 1 - (w - 1 - x) = x by omega]; rfl

theorem scale_shows {bytes : List Byte} {w h : Nat} {f : Nat → Nat → Byte} (hd : Shows bytes w h f) (sx sy : Byte)
    (h1 : w * max sx.toNat 1 < U32) (h2 : h * max sy.toNat 1 < U32)
    (h3 : (w * max sx.toNat 1) * (h * max sy.toNat 1) < U32) :
    ∃ out, scalePixels bytes w h sx sy = .ok (w * max sx.toNat 1, h * max sy.toNat 1, out) ∧
      Shows out (w * max sx.toNat 1) (h * max sy.toNat 1) (fun x y => f (x / max sx.toNat 1) (y / max sy.toNat 1)) := by
  unfold scalePixels
  dsimp only
  have px : 0 < max sx.toNat 1 := by omega
  have py : 0 < max sy.toNat 1 := by omega
  revert h1 h2 h3 px py
  generalize max sx.toNat 1 = a
  generalize max sy.toNat 1 = b
  intro h1 h2 h3 ha hb
  rw [mulU32, if_pos h1, mulU32, if_pos h2]
  show ∃ out, ((mulU32 (w * a) (h * b)) >>= _) = _ ∧ _
  rw [mulU32, if_pos h3]
  have hdest : ∀ y x dy dx, y < h → x < w → dy < b → dx < a →
      (y * b + dy) * (w * a) + (x * a + dx) < (w * a) * (h * b) := by
    intro y x dy dx hy hx hdy hdx
    apply rm_lt
    · have := rm_lt (w := a) (h := w) hdx hx; rwa [Nat.mul_comm w a]
    · have := rm_lt (w := b) (h := h) hdy hy; rwa [Nat.mul_comm h b]
  let ws : List (Upd Byte) := (List.range h).flatMap fun y => (List.range w).flatMap fun x =>
    (List.range b).flatMap fun dy => (List.range a).flatMap fun dx =>
      [((y * b + dy) * (w * a) + (x * a + dx), fun _ => f x y)]
  have hloop : (forRange h (List.replicate ((w * a) * (h * b)) (0 : Byte)) fun out y =>
      forRange w out fun out x => do
        let pixel ← idx bytes (y * w + x)
        forRange b out fun out dy =>
          forRange a out fun out dx =>
            setIdx out ((y * b + dy) * (w * a) + (x * a + dx)) pixel) =
      .ok (applyW (List.replicate ((w * a) * (h * b)) 0) ws) := by
    refine forRange_writes (L := (w * a) * (h * b)) ?_ (by simp)
    intro s y hy hs
    refine forRange_writes (L := (w * a) * (h * b)) ?_ hs
    intro s x hx hs
    have hi : y * w + x < bytes.length := by rw [hd.1]; exact rm_lt hx hy
    have hv := hd.2 x y hx hy
    rw [List.getElem?_eq_getElem hi] at hv
    rw [idx_ok hi, Option.some.inj hv]
    show (forRange b s fun out dy => forRange a out fun out dx =>
            setIdx out ((y * b + dy) * (w * a) + (x * a + dx)) (f x y)) = _
    refine forRange_writes (L := (w * a) * (h * b)) ?_ hs
    intro s dy hdy hs
    refine forRange_writes (L := (w * a) * (h * b)) ?_ hs
    intro s dx hdx hs
    exact setIdx_ok _ (by rw [hs]; exact hdest y x dy dx hy hx hdy hdx)
  refine ⟨applyW (List.replicate ((w * a) * (h * b)) 0) ws, ?_, ?_, ?_⟩
  · show (_ >>= _) = _
    dsimp only [Bind.bind, Except.bind] at hloop ⊢
    rw [hloop]; rfl
  · simp
  · intro X Y hX hY
    apply applyW_const
    · simp only [List.length_replicate]; exact rm_lt hX hY
    · intro u hu huj
      simp only [ws, List.mem_flatMap, List.mem_range, List.mem_singleton] at hu
      obtain ⟨y, hy, x, hx, dy, hdy, dx, hdx, rfl⟩ := hu
      have hxx : x * a + dx < w * a := by have := rm_lt (w := a) (h := w) hdx hx; rwa [Nat.mul_comm w a]
      obtain ⟨e1, e2⟩ := rm_inj hxx hX huj
      show (fun _ => f x y) = fun _ => f (X / a) (Y / b)
      rw [← e1, ← e2, rm_div hdx, rm_div hdy]
    · refine ⟨(Y * (w * a) + X, fun _ => f (X / a) (Y / b)), ?_, rfl⟩
      simp only [ws, List.mem_flatMap, List.mem_range, List.mem_singleton]
      refine ⟨Y / b, Nat.div_lt_of_lt_mul (by rwa [Nat.mul_comm]), X / a, Nat.div_lt_of_lt_mul (by rwa [Nat.mul_comm]),
        Y % b, Nat.mod_lt _ hb, X % a, Nat.mod_lt _ ha, ?_⟩
      rw [show Y / b * b + Y % b = Y by rw [Nat.mul_comm]; exact Nat.div_add_mod _ _,
        show X / a * a + X % a = X by rw [Nat.mul_comm]; exact Nat.div_add_mod _ _]

/-- Sizes of an image that fit u32. -/
def Fits (w h : Nat) (stretch : Byte × Byte) : Prop :=
  w * max stretch.1.toNat 1 < U32 ∧ h * max stretch.2.toNat 1 < U32 ∧
    (w * max stretch.1.toNat 1) * (h * max stretch.2.toNat 1) < U32

theorem scale_fits {bytes : List Byte} {w h : Nat} {stretch : Byte × Byte} {r}
    (hr : scalePixels bytes w h stretch.1 stretch.2 = .ok r) : Fits w h stretch := by
  have h1 : w * max stretch.1.toNat 1 < U32 := by
    by_contra hc
    unfold scalePixels at hr; dsimp only at hr; rw [mulU32, if_neg hc] at hr; cases hr
  have h2 : h * max stretch.2.toNat 1 < U32 := by
    by_contra hc
    unfold scalePixels at hr; dsimp only at hr; rw [mulU32, if_pos h1, mulU32, if_neg hc] at hr; cases hr
  have h3 : (w * max stretch.1.toNat 1) * (h * max stretch.2.toNat 1) < U32 := by
    by_contra hc
    unfold scalePixels at hr; dsimp only at hr
    rw [mulU32, if_pos h1, mulU32, if_pos h2] at hr
    change ((mulU32 _ _) >>= _) = _ at hr
    rw [mulU32, if_neg hc] at hr; cases hr
  exact ⟨h1, h2, h3⟩

/-- Whatever the scale, a successful scaling yields a full picture. -/
theorem scale_sized {bytes : List Byte} {w h : Nat} {sx sy : Byte} {r} (hr : scalePixels bytes w h sx sy = .ok r)
    (hl : bytes.length = w * h) : r.2.2.length = r.1 * r.2.1 := by
  have : Inhabited Byte := ⟨0⟩
  obtain ⟨h1, h2, h3⟩ := scale_fits (stretch := (sx, sy)) hr
  obtain ⟨out, ho, hs⟩ := scale_shows (Shows.self hl) sx sy h1 h2 h3
  rw [ho] at hr; cases hr
  exact hs.1

theorem shows_map {α β : Type} {px : List α} {w h : Nat} {f : Nat → Nat → α} (hp : Shows px w h f) (g : α → β) :
    Shows (px.map g) w h (fun x y => g (f x y)) :=
  ⟨by simp [hp.1], fun x y hx hy => by rw [List.getElem?_map, hp.2 x y hx hy]; rfl⟩

/-- Decoding unpacked data. -/
theorem raster_core {unpacked : List Byte} {w h : Nat} {f : Nat → Nat → Byte} (hu : Shows unpacked w h f)
    (stretch : Byte × Byte) (h1 : w * max stretch.1.toNat 1 < U32) (h2 : h * max stretch.2.toNat 1 < U32)
    (h3 : (w * max stretch.1.toNat 1) * (h * max stretch.2.toNat 1) < U32) :
    ∃ raw, (if stretch.1 > 1 ∨ stretch.2 > 1 then scalePixels unpacked w h stretch.1 stretch.2
      else pure (w, h, unpacked)) = .ok (w * max stretch.1.toNat 1, h * max stretch.2.toNat 1, raw) ∧
      Shows raw (w * max stretch.1.toNat 1) (h * max stretch.2.toNat 1)
        (fun x y => f (x / max stretch.1.toNat 1) (y / max stretch.2.toNat 1)) := by
  split
  · exact scale_shows hu _ _ h1 h2 h3
  · rename_i hc
    have e1 : max stretch.1.toNat 1 = 1 := by
      have : ¬ (1 : Byte) < stretch.1 := fun h => hc (.inl h)
      have := UInt8.not_lt.1 this
      have := UInt8.le_iff_toNat_le.1 this
      simp at this; omega
    have e2 : max stretch.2.toNat 1 = 1 := by
      have : ¬ (1 : Byte) < stretch.2 := fun h => hc (.inr h)
      have := UInt8.not_lt.1 this
      have := UInt8.le_iff_toNat_le.1 this
      simp at this; omega
    refine ⟨unpacked, by rw [e1, e2, Nat.mul_one, Nat.mul_one]; rfl, ?_⟩
    rw [e1, e2, Nat.mul_one, Nat.mul_one]
    simpa using hu

theorem le_mul_max {a b : Nat} : a ≤ a * max b 1 := Nat.le_mul_of_pos_right a (by omega)

theorem Fits.wh {w h : Nat} {s : Byte × Byte} (hf : Fits w h s) : w * h < U32 :=
  Nat.lt_of_le_of_lt (Nat.mul_le_mul le_mul_max le_mul_max) hf.2.2

/-- `image_from_raster_bytes_single_color` on complete data. -/
theorem imageFromRaster_shows {data : List Byte} {w h : Nat} {asBits : Bool} {f : Nat → Nat → Byte}
    (hu : Shows (if asBits then unpackBytes data w h else data) w h f)
    (stretch : Byte × Byte) (hf : Fits w h stretch) (color : RGBA) (flow : ImageFlow) :
    ∃ i, imageFromRaster w h stretch color flow data asBits = .ok (.image i) ∧
      i.w = w * max stretch.1.toNat 1 ∧ i.h = h * max stretch.2.toNat 1 ∧ i.x = 0 ∧ i.y = 0 ∧ i.flow = flow ∧
      i.upsideDown = false ∧
      Shows i.pixels i.w i.h (fun x y => color.withAlpha (f (x / max stretch.1.toNat 1) (y / max stretch.2.toNat 1))) := by
  obtain ⟨raw, hr, hs⟩ := raster_core hu stretch hf.1 hf.2.1 hf.2.2
  refine ⟨⟨raw.map color.withAlpha, 0, 0, _, _, flow, false⟩, ?_, rfl, rfl, rfl, rfl, rfl, rfl, shows_map hs _⟩
  unfold imageFromRaster
  rw [mulU32, if_pos hf.wh]
  show (if (if asBits = true then unpackBytes data w h else data).length ≠ w * h then _ else _) = _
  rw [if_neg (by simpa using hu.1)]
  split at hr
  · rename_i hc
    rw [if_pos hc, hr]; rfl
  · rename_i hc
    rw [if_neg hc]
    obtain ⟨e1, e2⟩ := Prod.mk.inj (Except.ok.inj hr)
    obtain ⟨e2, e3⟩ := Prod.mk.inj e2
    rw [← e1, ← e2, ← e3]; rfl

/-- Whatever comes out of single-colour decoding has the size it claims, and only complete data is accepted. -/
theorem imageFromRaster_sized {data : List Byte} {w h : Nat} {asBits : Bool} {stretch : Byte × Byte} {color : RGBA}
    {flow : ImageFlow} {g : GraphicsCommand} (hr : imageFromRaster w h stretch color flow data asBits = .ok g) :
    (∃ i, g = .image i ∧ i.pixels.length = i.w * i.h ∧
      i.w = w * max stretch.1.toNat 1 ∧ i.h = h * max stretch.2.toNat 1 ∧
      (if asBits then unpackBytes data w h else data).length = w * h) ∨
    (∃ m, g = .error m ∧ (if asBits then unpackBytes data w h else data).length ≠ w * h) := by
  have : Inhabited Byte := ⟨0⟩
  by_cases hU : w * h < U32
  · by_cases hl : (if asBits then unpackBytes data w h else data).length = w * h
    · left
      by_cases hf : Fits w h stretch
      · obtain ⟨i, hi, hw, hh, _, _, _, _, hs⟩ := imageFromRaster_shows (Shows.self hl) stretch hf color flow
        rw [hi] at hr; cases hr
        exact ⟨i, rfl, hs.1, hw, hh, hl⟩
      · unfold imageFromRaster at hr
        rw [mulU32, if_pos hU] at hr
        change (if (if asBits = true then unpackBytes data w h else data).length ≠ w * h then _ else _) = _ at hr
        rw [if_neg (by simpa using hl)] at hr
        split at hr
        · cases hsc : scalePixels (if asBits = true then unpackBytes data w h else data) w h stretch.1 stretch.2 with
          | error e => rw [hsc] at hr; cases hr
          | ok r =>
            exact absurd (scale_fits hsc) hf
        · rename_i hc
          have e1 : max stretch.1.toNat 1 = 1 := by
            have := UInt8.le_iff_toNat_le.1 (UInt8.not_lt.1 fun h => hc (.inl h))
            simp at this; omega
          have e2 : max stretch.2.toNat 1 = 1 := by
            have := UInt8.le_iff_toNat_le.1 (UInt8.not_lt.1 fun h => hc (.inr h))
            simp at this; omega
          cases hr
          exact ⟨_, rfl, by simpa using hl, by rw [e1, Nat.mul_one], by rw [e2, Nat.mul_one], hl⟩
    · right
      unfold imageFromRaster at hr
      rw [mulU32, if_pos hU] at hr
      change (if (if asBits = true then unpackBytes data w h else data).length ≠ w * h then _ else _) = _ at hr
      rw [if_pos (by simpa using hl)] at hr
      cases hr
      exact ⟨_, rfl, hl⟩
  · unfold imageFromRaster at hr
    rw [mulU32, if_neg hU] at hr
    cases hr

/-! ### Merging -/

theorem blendChan_255 (fg bg : Byte) : blendChan fg bg 255 = fg := by
  rw [blendChan_eq]
  have h := UInt8.toNat_lt fg
  have : (2 * (fg.toNat * (255 : Byte).toNat + bg.toNat * (255 - (255 : Byte).toNat)) + 255) / 510 = fg.toNat := by
    show (2 * (fg.toNat * 255 + bg.toNat * (255 - 255)) + 255) / 510 = fg.toNat
    omega
  rw [this, UInt8.ofNat_toNat]

theorem blend_opaque (c fg : RGBA) (h : fg.a = 255) : c.blend fg = fg := by
  obtain ⟨r, g, b, a⟩ := fg
  cases h
  show (if (255 : Byte) = 0 then (⟨r, g, b, 255⟩ : RGBA) else (⟨blendChan r r 255, blendChan g g 255, blendChan b b 255, 255⟩ : RGBA)) = _
  rw [if_neg (by decide)]
  simp [blendChan_255]

theorem blend_transparent (c fg : RGBA) (h : fg.a = 0) : c.blend fg = c := by
  obtain ⟨r, g, b, a⟩ := fg
  cases h
  rfl

theorem paintLayer_ok {base layer : List RGBA} (hle : layer.length ≤ base.length) :
    ∃ r, paintLayer base layer = .ok r ∧ r.length = base.length ∧
      ∀ j : Nat, r[j]? = (base[j]?).map (fun b : RGBA => match layer[j]? with | some f => b.blend f | none => b) := by
  obtain ⟨r, h1, h2, h3⟩ := forRange_inv (n := layer.length) (s := base)
    (body := fun px i => do let b ← idx px i; let f ← idx layer i; setIdx px i (b.blend f))
    (fun k r => r.length = base.length ∧
      ∀ j : Nat, r[j]? = (base[j]?).map (fun b : RGBA => match layer[j]? with | some f => if j < k then b.blend f else b | none => b))
    ⟨rfl, fun j => by cases base[j]? <;> simp <;> split <;> rfl⟩
    (by
      intro i s hi ⟨hl, hs⟩
      have hib : i < base.length := by omega
      have his : i < s.length := by omega
      refine ⟨s.set i ((s[i]).blend layer[i]), ?_, by simp [hl], fun j => ?_⟩
      · rw [idx_ok his]
        show (idx layer i >>= fun f => setIdx s i ((s[i]).blend f)) = _
        rw [idx_ok hi]
        show setIdx s i _ = _
        rw [setIdx, if_pos his]
      · rw [List.getElem?_set]
        by_cases hij : i = j
        · subst hij
          have := hs i
          rw [List.getElem?_eq_getElem his, List.getElem?_eq_getElem hib, List.getElem?_eq_getElem hi] at this
          simp at this
          simp [his, hib, hi, this]
        · rw [if_neg hij, hs j]
          congr 1
          funext b
          cases layer[j]? with
          | none => rfl
          | some f =>
            have : (j < i + 1) = (j < i) := by simp; omega
            simp only [this])
  refine ⟨r, h1, h2, fun j => ?_⟩
  rw [h3 j]
  congr 1
  funext b
  by_cases hj : j < layer.length
  · simp [hj]
  · simp [List.getElem?_eq_none (Nat.le_of_not_lt hj)]

/-- A list of full pictures of one size. -/
def SameSize (w h : Nat) (layers : List Image) : Prop := ∀ l ∈ layers, l.w = w ∧ l.h = h ∧ l.pixels.length = w * h

/-- All later layers painted over a value, in order. -/
def paintAll (c : RGBA) (fs : List RGBA) : RGBA := fs.foldl RGBA.blend c

theorem mergeRest_ok {image : Image} {w h : Nat} {ls : List Image} (hi : image.w = w ∧ image.h = h ∧ image.pixels.length = w * h)
    (hs : SameSize w h ls) : ∃ r, mergeRest image ls = .ok (.ok { image with pixels := r }) ∧ r.length = w * h ∧
      ∀ j : Nat, r[j]? = (image.pixels[j]?).map (fun c => paintAll c (ls.filterMap (fun l => l.pixels[j]?))) := by
  induction ls generalizing image with
  | nil => exact ⟨image.pixels, rfl, hi.2.2, fun j => by simp [paintAll]⟩
  | cons l ls ih =>
    obtain ⟨lw, lh, ll⟩ := hs l (by simp)
    obtain ⟨r, h1, h2, h3⟩ := paintLayer_ok (base := image.pixels) (layer := l.pixels) (by omega)
    obtain ⟨r', h1', h2', h3'⟩ := ih (image := { image with pixels := r }) ⟨hi.1, hi.2.1, by show r.length = _; omega⟩
      (fun l hl => hs l (by simp [hl]))
    refine ⟨r', ?_, h2', fun j => ?_⟩
    · rw [mergeRest, if_neg (by omega), h1]; exact h1'
    · rw [h3' j]
      show r[j]?.map _ = _
      rw [h3 j, Option.map_map]
      congr 1
      funext c
      simp only [Function.comp_apply, List.filterMap_cons]
      cases l.pixels[j]? <;> rfl

theorem mergeLayers_ok {w h : Nat} {l : Image} {ls : List Image} (hs : SameSize w h (l :: ls)) :
    ∃ r, mergeLayers (l :: ls) = .ok (.ok { l with pixels := r }) ∧ r.length = w * h ∧
      ∀ j : Nat, r[j]? = (l.pixels[j]?).map (fun c => paintAll c (ls.filterMap (fun l => l.pixels[j]?))) := by
  have hm : mergeLayers (l :: ls) = mergeRest l ls := by cases ls <;> rfl
  rw [hm]
  exact mergeRest_ok (hs l (by simp)) (fun l' hl => hs l' (by simp [hl]))

theorem paintAll_bits {c : RGBA} {fs : List RGBA} (h : ∀ f ∈ fs, f.a = 0 ∨ f.a = 255) :
    paintAll c fs = ((fs.filter (fun f => f.a = 255)).getLast?).getD c := by
  induction fs generalizing c with
  | nil => rfl
  | cons f fs ih =>
    show paintAll (c.blend f) fs = _
    rw [ih (fun g hg => h g (by simp [hg]))]
    rcases h f (by simp) with h0 | h0
    · rw [blend_transparent c f h0]; simp [h0]
    · rw [blend_opaque c f h0]
      rw [List.filter_cons_of_pos (by simp [h0]), List.getLast?_cons]
      rfl

/-- Merging never loses or adds dots. -/
theorem mergeRest_sized {image : Image} {ls : List Image} (hi : image.pixels.length = image.w * image.h)
    (hs : ∀ l ∈ ls, l.pixels.length = l.w * l.h) :
    ∃ r, mergeRest image ls = .ok r ∧
      ∀ i, r = .ok i → i.pixels.length = i.w * i.h ∧ i.w = image.w ∧ i.h = image.h := by
  induction ls generalizing image with
  | nil => exact ⟨_, rfl, fun i h => by cases h; exact ⟨hi, rfl, rfl⟩⟩
  | cons l ls ih =>
    rw [mergeRest]
    split
    · exact ⟨_, rfl, fun i h => by cases h⟩
    · have : l.pixels.length ≤ image.pixels.length := by
        rw [hs l (by simp), hi]; exact Nat.mul_le_mul (by omega) (by omega)
      obtain ⟨r, h1, h2, h3⟩ := paintLayer_ok this
      rw [h1]
      exact ih (image := { image with pixels := r }) (by show r.length = _; rw [h2, hi]) (fun l hl => hs l (by simp [hl]))

end Thermal
