import Verif.Spec.Printer
import Verif.Props.Graphics
import Verif.Props.Stored
import Verif.Proofs.Pen
/-
The images that the decoders return, as pictures.
-/
namespace Thermal
open Spec

/-- A dot: nothing if it is transparent. -/
def clear (c : RGBA) : Option RGBA := if c.a = 0 then none else some c

theorem of_congr {w h : Nat} {f g : Nat → Nat → Option RGBA} (e : ∀ x y, x < w → y < h → f x y = g x y) : Picture.of w h f = Picture.of w h g := by
  unfold Picture.of
  congr 1
  apply List.map_congr_left
  intro i hi
  rw [List.mem_range] at hi
  have hw : 0 < w := by
    rcases Nat.eq_zero_or_pos w with rfl | h
    · simp at hi
    · exact h
  exact e _ _ (Nat.mod_lt _ hw) (Nat.div_lt_of_lt_mul hi)

theorem picture_shows {i : Image} {w h : Nat} {f : Nat → Nat → RGBA} (hw : i.w = w) (hh : i.h = h) (hs : Shows i.pixels w h f) :
    pictureOf i = Picture.of w h (fun x y => clear (f x y)) := by
  unfold pictureOf Picture.of
  rw [hw, hh]
  congr 1
  apply List.ext_getElem?
  intro k
  rw [List.getElem?_map, List.getElem?_map]
  by_cases hk : k < w * h
  · have hw : 0 < w := by
      rcases Nat.eq_zero_or_pos w with rfl | h
      · simp at hk
      · exact h
    have := hs.2 (k % w) (k / w) (Nat.mod_lt _ hw) (Nat.div_lt_of_lt_mul hk)
    rw [Nat.mul_comm, Nat.div_add_mod] at this
    rw [this, List.getElem?_range hk]
    rfl
  · rw [List.getElem?_eq_none (by rw [hs.1]; omega), List.getElem?_eq_none (by simpa using hk)]
    rfl

theorem ink_opaque {n : Byte} (h : trueColor n = true) : (ink defaultColors n).withAlpha 255 = ink defaultColors n := by
  have : ∀ n : Byte, trueColor n = true → (ink defaultColors n).withAlpha 255 = ink defaultColors n := by apply byte_all; decide +kernel
  exact this n h

theorem ink_solid (n : Byte) : (ink defaultColors n).a = 255 := by
  have : ∀ n : Byte, (ink defaultColors n).a = 255 := by apply byte_all; decide +kernel
  exact this n

theorem clear_dot {n : Byte} (h : trueColor n = true) (b : Bool) :
    clear ((ink defaultColors n).withAlpha (Spec.dot b)) = if b then some (ink defaultColors n) else none := by
  cases b
  · rfl
  · show clear ((ink defaultColors n).withAlpha 255) = _
    rw [ink_opaque h]
    unfold clear
    rw [ink_solid, if_neg (by decide)]
    rfl

/-- A decoding that did not panic was of an image that can be counted. -/
theorem fits_of_ok {w h : Nat} {stretch : Byte × Byte} {color : RGBA} {flow : ImageFlow} {data : List Byte} {asBits : Bool} {g}
    (hw : w < U32) (hh : h < U32) (hl : (if asBits then unpackBytes data w h else data).length = w * h)
    (hr : imageFromRaster w h stretch color flow data asBits = .ok g) : Fits w h stretch := by
  unfold imageFromRaster at hr
  rw [bind_ok] at hr
  obtain ⟨size, h1, hr⟩ := hr
  rw [mulU32_ok] at h1
  obtain ⟨hs, rfl⟩ := h1
  rw [if_neg (by simpa using hl)] at hr
  split at hr
  · rw [bind_ok] at hr
    obtain ⟨_, h2, _⟩ := hr
    exact scale_fits h2
  · rename_i hn
    have e : ∀ b : Byte, ¬ b > 1 → max b.toNat 1 = 1 := by
      intro b hb
      have : ¬ (1 : Byte).toNat < b.toNat := fun h => hb (UInt8.lt_iff_toNat_lt.2 h)
      have : ¬ 1 < b.toNat := this
      omega
    have e1 := e stretch.1 (fun h => hn (.inl h))
    have e2 := e stretch.2 (fun h => hn (.inr h))
    unfold Fits
    rw [e1, e2, Nat.mul_one, Nat.mul_one]
    exact ⟨hw, hh, hs⟩

/-- An image that shows a picture: all dots there, on or off, on lines of its own or in the line. -/
structure Stamp (i : Image) (flow : ImageFlow) (pic : Picture) : Prop where
  flow : i.flow = flow
  upright : i.upsideDown = false
  full : i.pixels.length = i.w * i.h
  bits : ∀ p ∈ i.pixels, p.a = 0 ∨ p.a = 255
  shows : pictureOf i = pic

theorem Stamp.width {i flow pic} (h : Stamp i flow pic) : i.w = pic.width := by rw [← h.shows]; rfl
theorem Stamp.height {i flow pic} (h : Stamp i flow pic) : i.h = pic.height := by rw [← h.shows]; rfl

theorem shows_all {α : Type} {px : List α} {w h : Nat} {f : Nat → Nat → α} (hs : Shows px w h f) {P : α → Prop} (hp : ∀ x y, P (f x y)) :
    ∀ p ∈ px, P p := by
  intro p hp'
  obtain ⟨k, hk, rfl⟩ := List.mem_iff_getElem.1 hp'
  rw [hs.1] at hk
  have hw : 0 < w := by
    rcases Nat.eq_zero_or_pos w with rfl | h
    · simp at hk
    · exact h
  have := hs.2 (k % w) (k / w) (Nat.mod_lt _ hw) (Nat.div_lt_of_lt_mul hk)
  rw [Nat.mul_comm, Nat.div_add_mod, List.getElem?_eq_some_iff] at this
  obtain ⟨_, e⟩ := this
  rw [e]; exact hp _ _

theorem bits_stamp {w h : Nat} {st : Byte × Byte} {flow : ImageFlow} {data : List Byte} {asBits : Bool} {n : Byte} (hn : trueColor n = true)
    {bit : Nat → Nat → Bool} (hu : Shows (if asBits then unpackBytes data w h else data) w h (fun x y => Spec.dot (bit x y)))
    (hw : w < U32) (hh : h < U32) {g}
    (hr : imageFromRaster w h st (ink defaultColors n) flow data asBits = .ok g) :
    ∃ i, g = .image i ∧ i.x = 0 ∧ i.y = 0 ∧
      Stamp i flow (.bits w h (max st.1.toNat 1) (max st.2.toNat 1) (ink defaultColors n) bit) := by
  have hf := fits_of_ok hw hh hu.1 hr
  obtain ⟨i, h1, h2, h3, h4, h5, h6, h7, h8⟩ := imageFromRaster_shows hu st hf (ink defaultColors n) flow
  rw [h1] at hr
  refine ⟨i, (Except.ok.inj hr).symm, h4, h5, h6, h7, h8.1, ?_, ?_⟩
  · refine shows_all h8 (P := fun p => p.a = 0 ∨ p.a = 255) ?_
    intro x y
    show Spec.dot _ = 0 ∨ Spec.dot _ = 255
    unfold Spec.dot; split <;> simp
  · rw [picture_shows rfl rfl h8, h2, h3]
    unfold Picture.bits
    apply of_congr
    intro x y _ _
    exact clear_dot hn _

theorem raster_stamp {w h : Nat} {st : Byte × Byte} {flow : ImageFlow} {data : List Byte} {n : Byte} (hn : trueColor n = true)
    (hl : data.length = rowBytes w * h) (hw : w < U32) (hh : h < U32) {g}
    (hr : imageFromRaster w h st (ink defaultColors n) flow data true = .ok g) :
    ∃ i, g = .image i ∧ i.x = 0 ∧ i.y = 0 ∧
      Stamp i flow (.bits w h (max st.1.toNat 1) (max st.2.toNat 1) (ink defaultColors n) (rasterBit data w)) :=
  bits_stamp (asBits := true) hn (unpack_shows data w h hl) hw hh hr

theorem column_stamp {w h : Nat} {st : Byte × Byte} {flow : ImageFlow} {data : List Byte} {n : Byte} (hn : trueColor n = true)
    (hl : data.length = rowBytes h * w) (hw : w < U32) (hh : h < U32) {g}
    (hr : imageFromColumn w h st (ink defaultColors n) flow data = .ok g) :
    ∃ i, g = .image i ∧ i.x = 0 ∧ i.y = 0 ∧
      Stamp i flow (.bits w h (max st.1.toNat 1) (max st.2.toNat 1) (ink defaultColors n) (columnBit data h)) := by
  obtain ⟨px, h1, h2⟩ := column_shows hl
  unfold imageFromColumn at hr
  rw [h1] at hr
  exact bits_stamp (asBits := false) hn h2 hw hh hr

/-! ### Upright -/

theorem mergeRest_upright {image : Image} {ls : List Image} {i : Image} (h : mergeRest image ls = .ok (.ok i)) : i.upsideDown = image.upsideDown := by
  induction ls generalizing image with
  | nil => cases h; rfl
  | cons l ls ih =>
    rw [mergeRest] at h
    split at h
    · cases h
    · rw [bind_ok] at h
      obtain ⟨px, _, h⟩ := h
      exact ih (image := { image with pixels := px }) h

theorem merge_upright {l : Image} {ls : List Image} {i : Image} (h : mergeLayers (l :: ls) = .ok (.ok i)) (hl : l.upsideDown = false) :
    i.upsideDown = false := by
  cases ls with
  | nil => cases h; exact hl
  | cons m ms => exact (mergeRest_upright (ls := m :: ms) h).trans hl

theorem imageFromRaster_upright {w h : Nat} {stretch : Byte × Byte} {color : RGBA} {flow : ImageFlow} {data : List Byte} {asBits : Bool} {i}
    (hr : imageFromRaster w h stretch color flow data asBits = .ok (.image i)) : i.upsideDown = false := by
  unfold imageFromRaster at hr
  rw [bind_ok] at hr
  obtain ⟨size, _, hr⟩ := hr
  generalize (if asBits = true then unpackBytes data w h else data) = u at hr
  by_cases h1 : u.length ≠ size
  · rw [if_pos h1] at hr; cases hr
  · rw [if_neg h1] at hr
    by_cases h2 : stretch.1 > 1 ∨ stretch.2 > 1
    · rw [if_pos h2, bind_ok] at hr
      obtain ⟨⟨a, b, c⟩, _, hr⟩ := hr
      cases hr; rfl
    · rw [if_neg h2] at hr
      cases hr; rfl

theorem multiLayers_upright {w h : Nat} {stretch : Byte × Byte} {colors : RenderColors} {flow : ImageFlow}
    {data : List Byte} {asBits : Bool} {p : Nat} {ns : List Nat} {imgs : List Image}
    (hr : multiLayers w h stretch colors flow data asBits p ns = .ok (.ok imgs)) : ∀ i ∈ imgs, i.upsideDown = false := by
  induction ns generalizing imgs with
  | nil => cases hr; intro i hi; cases hi
  | cons n ns ih =>
    rw [multiLayers] at hr
    simp only [bind_ok] at hr
    obtain ⟨c, _, sl, _, g, h3, hr⟩ := hr
    rcases imageFromRaster_sized h3 with ⟨i, rfl, _⟩ | ⟨m, rfl, _⟩
    · simp only [bind_ok] at hr
      obtain ⟨r, h4, hr⟩ := hr
      cases r with
      | error m => cases hr
      | ok rest =>
        cases hr
        intro j hj
        rcases List.mem_cons.1 hj with rfl | hj
        · exact imageFromRaster_upright h3
        · exact ih h4 j hj
    · cases hr

theorem multi_upright {w h : Nat} {stretch : Byte × Byte} {n : Byte} {colors : RenderColors} {flow : ImageFlow} {data : List Byte} {asBits : Bool}
    {i} (hr : imageFromRasterMulti w h stretch n colors flow data asBits = .ok (.image i)) : i.upsideDown = false := by
  unfold imageFromRasterMulti at hr
  dsimp only at hr
  generalize (if asBits = true then w / 8 * h + 1 else w * h + 1) = per at hr
  by_cases hl : data.length ≠ per * n.toNat
  · rw [if_pos hl] at hr; cases hr
  · rw [if_neg hl, bind_ok] at hr
    obtain ⟨r, h1, hr⟩ := hr
    cases r with
    | error m => cases hr
    | ok layers =>
      simp only [bind_ok] at hr
      obtain ⟨r, h2, hr⟩ := hr
      cases r with
      | error m => cases hr
      | ok j =>
        cases hr
        cases layers with
        | nil => cases h2
        | cons l ls => exact merge_upright h2 (multiLayers_upright h1 l (by simp))

/-! ### Definitions -/

theorem planes_data {n size : Nat} {d : List Byte} (hl : d.length = n * (size + 1)) : (planes n size d).flatMap (fun l => l.1 :: l.2) = d := by
  induction n generalizing d with
  | zero => rw [Nat.zero_mul] at hl; rw [List.eq_nil_of_length_eq_zero hl]; rfl
  | succ n ih =>
    have hs : (n + 1) * (size + 1) = n * (size + 1) + (size + 1) := Nat.succ_mul _ _
    match d, hl with
    | a :: d', hl =>
      have e := ih (d := d'.drop size) (by rw [List.length_drop]; simp at hl; omega)
      unfold planes at e ⊢
      rw [List.range_succ_eq_map, List.map_cons, List.flatMap_cons, List.map_map]
      conv => rhs; rw [show a :: d' = (a :: d'.take size) ++ d'.drop size by simp, ← e]
      congr 1
      · simp
      · congr 1
        apply List.map_congr_left
        intro i _
        have e2 : (i + 1) * (size + 1) = i * (size + 1) + size + 1 := by rw [Nat.succ_mul]; omega
        simp only [Function.comp_def, List.getD_eq_getElem?_getD, List.getElem?_drop, List.drop_drop, Nat.succ_eq_add_one, e2,
          List.getElem?_cons_succ, List.drop_succ_cons]
        rw [show i * (size + 1) + size = size + i * (size + 1) by omega, show size + i * (size + 1) + 1 = size + (i * (size + 1) + 1) by omega]

theorem planes_len {n size : Nat} {d : List Byte} (hl : d.length = n * (size + 1)) : ∀ l ∈ planes n size d, l.2.length = size := by
  intro l h
  unfold planes at h
  obtain ⟨i, hi, rfl⟩ := List.mem_map.1 h
  rw [List.mem_range] at hi
  have : (i + 1) * (size + 1) ≤ n * (size + 1) := Nat.mul_le_mul_right _ hi
  rw [Nat.succ_mul] at this
  simp only [List.length_take, List.length_drop]
  omega

theorem clear_top {ps : List (Byte × List Byte)} (hc : ∀ l ∈ ps, trueColor l.1 = true) (w x y : Nat) :
    clear (topLayer defaultColors ps w x y) =
      ((ps.filter fun p => rasterBit p.2 w x y).getLast?).map fun p => ink defaultColors p.1 := by
  unfold topLayer
  cases h : (ps.filter fun p => rasterBit p.2 w x y).getLast? with
  | none => rfl
  | some l =>
    have := List.mem_of_getLast? h
    rw [List.mem_filter] at this
    exact clear_dot (hc l this.1) true

theorem defined_stamp {data : List Byte} {g : GraphicsCommand} (hd : Defines data g) (hc : completeDefinition data = true) :
    ∃ i pic, g = .image i ∧ definedPicture data = some pic ∧ i.x = 0 ∧ i.y = 0 ∧ Stamp i .block pic := by
  obtain ⟨a, kc1, kc2, b, xl, xh, yl, yh, d, rfl, hg⟩ := hd
  simp only [completeDefinition, decide_eq_true_eq] at hc
  obtain ⟨c1, c2, c3, c4⟩ := hc
  have hw : wide xl xh < 65536 := by have := xl.toNat_lt; have := xh.toNat_lt; unfold wide; omega
  have hh : wide yl yh < 65536 := by have := yl.toNat_lt; have := yh.toNat_lt; unfold wide; omega
  have hwh : wide xl xh * wide yl yh ≤ 65535 * 65535 := Nat.mul_le_mul (by omega) (by omega)
  have hf : Fits (wide xl xh) (wide yl yh) (1, 1) := by
    unfold Fits
    simp only [show max ((1 : Byte).toNat) 1 = 1 from rfl, Nat.mul_one, U32]
    refine ⟨?_, ?_, ?_⟩ <;> omega
  have hlen : (planes b.toNat (rowBytes (wide xl xh) * wide yl yh) d).length = b.toNat := by simp [planes]
  obtain ⟨i, h1, h2, h3, h4, h5, h6, h7⟩ := C24_multi_colour (wide xl xh) (wide yl yh) (1, 1) hf defaultColors .block
    (planes b.toNat (rowBytes (wide xl xh) * wide yl yh) d) c1
    (by intro h; rw [h] at hlen; simp at hlen; omega) (by rw [hlen]; have := b.toNat_lt; omega) (planes_len c3)
  rw [planes_data c3, hlen, UInt8.ofNat_toNat] at h1
  rw [show imageFromRasterMulti (xl.toNat + 256 * xh.toNat) (yl.toNat + 256 * yh.toNat) (1, 1) b defaultColors .block d true = _ from h1] at hg
  refine ⟨i, _, (Except.ok.inj hg).symm, rfl, h4, h5, h6, ?_, h7.1, ?_, ?_⟩
  · exact multi_upright h1
  · refine shows_all h7 (P := fun p => p.a = 0 ∨ p.a = 255) ?_
    intro x y
    unfold topLayer
    split
    · exact .inr rfl
    · exact .inl rfl
  · rw [picture_shows rfl rfl h7, h2, h3]
    simp only [show max ((1 : Byte).toNat) 1 = 1 from rfl, Nat.mul_one, Nat.div_one]
    unfold Picture.planes
    apply of_congr
    intro x y _ _
    exact clear_top c4 _ _ _

theorem buffer_stamp {column : Bool} {data : List Byte} {g : GraphicsCommand} (hb : Buffers (column, data) g) (hc : completeBuffer column data = true) :
    ∃ i pic, g = .image i ∧ bufferPicture column data = some pic ∧ i.x = 0 ∧ i.y = 0 ∧ Stamp i .block pic := by
  rcases hb with ⟨a, bx, bY, c, xl, xh, yl, yh, d, rfl, hg⟩ | ⟨hl, _⟩
  · simp only [completeBuffer, decide_eq_true_eq] at hc
    obtain ⟨c1, c2, c3, c4⟩ := hc
    have hw : wide xl xh < 65536 := by have := xl.toNat_lt; have := xh.toNat_lt; unfold wide; omega
    have hh : wide yl yh < 65536 := by have := yl.toNat_lt; have := yh.toNat_lt; unfold wide; omega
    have hw' : wide xl xh < U32 := by unfold U32; omega
    have hh' : wide yl yh < U32 := by unfold U32; omega
    have m1 : max bx.toNat 1 = bx.toNat := by omega
    have m2 : max bY.toNat 1 = bY.toNat := by omega
    cases column
    · obtain ⟨i, e, k1, k2, k3⟩ := raster_stamp c3 c4 hw' hh' hg
      refine ⟨i, _, e, rfl, k1, k2, ?_⟩
      rwa [m1, m2] at k3
    · obtain ⟨i, e, k1, k2, k3⟩ := column_stamp c3 c4 hw' hh' hg
      refine ⟨i, _, e, rfl, k1, k2, ?_⟩
      rwa [m1, m2] at k3
  · match data, hc with
    | _ :: _ :: _ :: _ :: _ :: _ :: _ :: _ :: _, _ => simp at hl; omega

/-! ### Pictures over each other -/

theorem clear_topDot {c : RGBA} {ls : List RGBA} (hl : ∀ l ∈ ls, l.a = 0 ∨ l.a = 255) :
    clear (topDot c ls) = ((c :: ls).filterMap clear).getLast? := by
  have e : ls.filterMap clear = ls.filter (fun f => f.a = 255) := by
    induction ls with
    | nil => rfl
    | cons l ls ih =>
      have ih := ih (fun l h => hl l (List.mem_cons_of_mem _ h))
      rcases hl l (by simp) with h | h
      · rw [List.filterMap_cons_none (by unfold Thermal.clear; rw [if_pos h]), ih, List.filter_cons_of_neg (by rw [h]; decide)]
      · rw [List.filterMap_cons_some (b := l) (by unfold Thermal.clear; rw [h, if_neg (by decide)]), ih, List.filter_cons_of_pos (by rw [h]; decide)]
  have s : ∀ c : RGBA, c.a = 255 → clear c = some c := by intro c h; unfold clear; rw [h, if_neg (by decide)]
  unfold topDot
  rw [show (c :: ls).filterMap clear = (clear c).toList ++ ls.filterMap clear by
    rw [List.filterMap_cons]; cases clear c <;> rfl, e, List.getLast?_append]
  cases h : (ls.filter (fun f => f.a = 255)).getLast? with
  | none =>
    show clear c = _
    cases clear c <;> rfl
  | some l =>
    have := List.mem_of_getLast? h
    rw [List.mem_filter] at this
    exact s l (by simpa using this.2)

theorem stamp_dot {i : Image} {pic : Picture} {flow} (h : Stamp i flow pic) {x y : Nat} (_hx : x < i.w) (_hy : y < i.h) :
    pic.dot x y = (i.pixels[y * i.w + x]?).bind clear := by
  rw [← h.shows]
  unfold Picture.dot pictureOf
  simp only [List.getD_eq_getElem?_getD, List.getElem?_map]
  cases i.pixels[y * i.w + x]? <;> rfl

theorem over_stamp {first : Image} {later : List Image} {p : Picture} {ps : List Picture}
    (h1 : Stamp first .block p) (hl : List.Forall₂ (fun i p => Stamp i .block p) later ps)
    (hs : ∀ q ∈ ps, q.width = p.width ∧ q.height = p.height) {r} (hr : mergeLayers (first :: later) = .ok r) :
    ∃ i, r = .ok i ∧ i.x = first.x ∧ i.y = first.y ∧ Stamp i .block (.over p ps) := by
  have hsz : ∀ l ∈ first :: later, l.w = p.width ∧ l.h = p.height ∧ l.pixels.length = p.width * p.height := by
    intro l hm
    rcases List.mem_cons.1 hm with rfl | hm
    · exact ⟨h1.width, h1.height, by rw [h1.full, h1.width, h1.height]⟩
    · obtain ⟨k, hk, rfl⟩ := List.mem_iff_getElem.1 hm
      have hk' : k < ps.length := by rw [← hl.length_eq]; exact hk
      have st := (List.forall₂_iff_get.1 hl).2 k hk hk'
      simp only [List.get_eq_getElem] at st
      obtain ⟨e1, e2⟩ := hs _ (List.getElem_mem hk')
      exact ⟨st.width.trans e1, st.height.trans e2, by rw [st.full, st.width, st.height, e1, e2]⟩
  have hb : ∀ l ∈ later, ∀ q ∈ l.pixels, q.a = 0 ∨ q.a = 255 := by
    intro l hm
    obtain ⟨k, hk, rfl⟩ := List.mem_iff_getElem.1 hm
    have hk' : k < ps.length := by rw [← hl.length_eq]; exact hk
    exact ((List.forall₂_iff_get.1 hl).2 k hk hk').bits
  obtain ⟨i, m1, m2, m3, m4, m5, m6, m7, m8⟩ := C24_merge p.width p.height first later hsz hb
  rw [m1] at hr
  have lb : ∀ j : Nat, ∀ l ∈ later.filterMap (fun l : Image => l.pixels[j]?), l.a = 0 ∨ l.a = 255 := by
    intro j l hm
    obtain ⟨im, him, he⟩ := List.mem_filterMap.1 hm
    exact hb im him l (List.mem_of_getElem? he)
  have tb : ∀ (c : RGBA) (ls : List RGBA), (c.a = 0 ∨ c.a = 255) → (∀ l ∈ ls, l.a = 0 ∨ l.a = 255) → (topDot c ls).a = 0 ∨ (topDot c ls).a = 255 := by
    intro c ls h1 h2
    unfold topDot
    cases h : (ls.filter (fun f => f.a = 255)).getLast? with
    | none => exact h1
    | some l =>
      have := List.mem_of_getLast? h
      rw [List.mem_filter] at this
      exact h2 l this.1
  refine ⟨i, (Except.ok.inj hr).symm, m5, m6, m7.trans h1.flow, ?_, by rw [m4, m2, m3], ?_, ?_⟩
  · exact merge_upright m1 h1.upright
  · intro q hq
    obtain ⟨j, hj, rfl⟩ := List.mem_iff_getElem.1 hq
    have e := m8 j (by rw [← m4]; exact hj)
    rw [List.getElem?_eq_getElem hj] at e
    cases hc : first.pixels[j]? with
    | none => rw [hc] at e; cases e
    | some c =>
      rw [hc] at e
      rw [Option.some.inj e]
      exact tb _ _ (h1.bits c (List.mem_of_getElem? hc)) (lb j)
  · have hsh : Shows i.pixels p.width p.height (fun x y => topDot (first.pixels.getD (y * p.width + x) ⟨0, 0, 0, 0⟩)
        (later.filterMap (fun l => l.pixels[y * p.width + x]?))) := by
      refine ⟨m4, fun x y hx hy => ?_⟩
      have hj : y * p.width + x < p.width * p.height := by
        have : (y + 1) * p.width ≤ p.height * p.width := Nat.mul_le_mul_right _ hy
        rw [Nat.succ_mul, Nat.mul_comm p.height] at this
        omega
      rw [m8 _ hj]
      simp only [List.getD_eq_getElem?_getD]
      have hlt : y * p.width + x < first.pixels.length := by rw [(hsz first (by simp)).2.2]; exact hj
      rw [List.getElem?_eq_getElem hlt]
      rfl
    rw [picture_shows m2 m3 hsh]
    unfold Picture.over
    apply of_congr
    intro x y hx hy
    have hj : y * p.width + x < p.width * p.height := by
      have : (y + 1) * p.width ≤ p.height * p.width := Nat.mul_le_mul_right _ hy
      rw [Nat.succ_mul, Nat.mul_comm p.height] at this
      omega
    have hlt : y * p.width + x < first.pixels.length := by rw [(hsz first (by simp)).2.2]; exact hj
    have hgd : first.pixels.getD (y * p.width + x) ⟨0, 0, 0, 0⟩ = first.pixels[y * p.width + x] := by
      rw [List.getD_eq_getElem?_getD, List.getElem?_eq_getElem hlt]; rfl
    rw [hgd, clear_topDot (lb _)]
    congr 1
    have hd := stamp_dot h1 (x := x) (y := y) (by rw [h1.width]; exact hx) (by rw [h1.height]; exact hy)
    rw [h1.width, List.getElem?_eq_getElem hlt] at hd
    rw [List.filterMap_cons, List.filterMap_cons, hd]
    have hrest : (later.filterMap (fun l => l.pixels[y * p.width + x]?)).filterMap clear = ps.filterMap (fun p => p.dot x y) := by
      clear hsz hb m1 m8 lb hsh hr
      induction hl with
      | nil => rfl
      | cons hst _ ih =>
        rename_i im q ims qs hrest
        obtain ⟨e1, e2⟩ := hs q (by simp)
        have ih := ih (fun q hq => hs q (List.mem_cons_of_mem _ hq))
        have hd := stamp_dot hst (x := x) (y := y) (by rw [hst.width, e1]; exact hx) (by rw [hst.height, e2]; exact hy)
        rw [hst.width, e1] at hd
        rw [List.filterMap_cons, List.filterMap_cons, hd]
        cases hq : im.pixels[y * p.width + x]? with
        | none => exact ih
        | some c =>
          simp only [Option.bind_some]
          rw [List.filterMap_cons, ih]
    rw [hrest]
    rfl

end Thermal
