import Verif.Proofs.MultiLayer
/-
C20–C24, C48, C66: decoding of images.
-/
namespace Thermal
open Spec

/-! ### C20 -/

/-- **C20**.  Complete bit-packed raster data unpacks to exactly w·h values; the one at (x,y) is 255 when bit
`7 - x mod 8` of byte `y·ceil(w/8) + x/8` is set and 0 otherwise. -/
theorem C20_unpack (data : List Byte) (w h : Nat) (hl : data.length = rowBytes w * h) :
    (unpackBytes data w h).length = w * h ∧
    ∀ x y, x < w → y < h → (unpackBytes data w h)[y * w + x]? =
      some (if (data.getD (y * ((w + 7) / 8) + x / 8) 0).toNat.testBit (7 - x % 8) then 255 else 0) :=
  unpack_shows data w h hl

/-- C20: no other amount of data has the size of the picture. -/
theorem C20_size_iff (data : List Byte) (w h : Nat) :
    (unpackBytes data w h).length = w * h ↔ data.length = rowBytes w * h := unpack_length_iff data w h

example : ([0b10110000, 0b01000000] : List Byte).length = rowBytes 3 * 2 ∧
    unpackBytes [0b10110000, 0b01000000] 3 2 = [255, 0, 255, 0, 255, 0] := by decide +kernel

/-! ### C21 -/

/-- **C21**.  Complete column data decodes, without panic, to the picture whose (x,y) dot is bit `7 - y mod 8` of byte
`x·ceil(h/8) + y/8`: the columns of the data are the columns of the picture. -/
theorem C21_column (data : List Byte) (w h : Nat) (hl : data.length = rowBytes h * w) :
    ∃ px, columnToBytes data w h = .ok px ∧ px.length = w * h ∧
      ∀ x y, x < w → y < h → px[y * w + x]? =
        some (if (data.getD (x * ((h + 7) / 8) + y / 8) 0).toNat.testBit (7 - y % 8) then 255 else 0) :=
  column_shows hl

/-- C21: as an image.  A column picture is the transpose of the raster picture of the same data. -/
theorem C21_column_image (data : List Byte) (w h : Nat) (hl : data.length = rowBytes h * w) (stretch : Byte × Byte)
    (hf : Fits w h stretch) (color : RGBA) (flow : ImageFlow) :
    ∃ i, imageFromColumn w h stretch color flow data = .ok (.image i) ∧
      i.w = w * max stretch.1.toNat 1 ∧ i.h = h * max stretch.2.toNat 1 ∧ i.flow = flow ∧
      Shows i.pixels i.w i.h (fun x y =>
        color.withAlpha (dot (rasterBit data h (y / max stretch.2.toNat 1) (x / max stretch.1.toNat 1)))) := by
  obtain ⟨px, h1, h2⟩ := column_shows hl
  obtain ⟨i, h3, h4, h5, _, _, h6, _, h7⟩ := imageFromRaster_shows (asBits := false) (data := px) h2 stretch hf color flow
  refine ⟨i, ?_, h4, h5, h6, h7⟩
  unfold imageFromColumn
  rw [h1]; exact h3

example : ([0b10100000, 0b11000000] : List Byte).length = rowBytes 3 * 2 ∧
    columnToBytes [0b10100000, 0b11000000] 2 3 = .ok [255, 255, 0, 255, 255, 0] := by decide +kernel

/-! ### C22 -/

/-- **C22**.  Stretching by (sx, sy), zero counting as one, gives a w·sx by h·sy picture whose dot (X,Y) is the dot
(X/sx, Y/sy) of the original. -/
theorem C22_scale (bytes : List Byte) (w h : Nat) (sx sy : Byte) (hl : bytes.length = w * h)
    (h1 : w * max sx.toNat 1 < 2 ^ 32) (h2 : h * max sy.toNat 1 < 2 ^ 32)
    (h3 : (w * max sx.toNat 1) * (h * max sy.toNat 1) < 2 ^ 32) :
    ∃ out, scalePixels bytes w h sx sy = .ok (w * max sx.toNat 1, h * max sy.toNat 1, out) ∧
      out.length = (w * max sx.toNat 1) * (h * max sy.toNat 1) ∧
      ∀ x y, x < w * max sx.toNat 1 → y < h * max sy.toNat 1 →
        out[y * (w * max sx.toNat 1) + x]? = bytes[y / max sy.toNat 1 * w + x / max sx.toNat 1]? := by
  have hs := Shows.self (α := Byte) (px := bytes) hl
  obtain ⟨out, ho, hl', hg⟩ := scale_shows hs sx sy h1 h2 h3
  refine ⟨out, ho, hl', fun x y hx hy => ?_⟩
  rw [hg x y hx hy]
  exact (hs.2 _ _ (Nat.div_lt_of_lt_mul (by rwa [Nat.mul_comm])) (Nat.div_lt_of_lt_mul (by rwa [Nat.mul_comm]))).symm

example : scalePixels [1, 2] 2 1 2 0 = .ok (4, 1, [1, 1, 2, 2]) := by decide +kernel

/-! ### C23 -/

/-- **C23** (single colour raster).  A decoded image has exactly w·h pixels, and decoding succeeds only for complete
data; any other data gives an Error value. -/
theorem C23_raster (data : List Byte) (w h : Nat) (asBits : Bool) (stretch : Byte × Byte) (color : RGBA)
    (flow : ImageFlow) (g : GraphicsCommand) (hr : imageFromRaster w h stretch color flow data asBits = .ok g) :
    (∃ i, g = .image i ∧ i.pixels.length = i.w * i.h ∧
      i.w = w * max stretch.1.toNat 1 ∧ i.h = h * max stretch.2.toNat 1 ∧
      data.length = (if asBits then rowBytes w else w) * h) ∨
    (∃ m, g = .error m ∧ data.length ≠ (if asBits then rowBytes w else w) * h) := by
  have key : (if asBits then unpackBytes data w h else data).length = w * h ↔
      data.length = (if asBits then rowBytes w else w) * h := by
    cases asBits with
    | false => simp
    | true => simpa using unpack_length_iff data w h
  rcases imageFromRaster_sized hr with ⟨i, h1, h2, h3, h4, h5⟩ | ⟨m, h1, h2⟩
  · exact .inl ⟨i, h1, h2, h3, h4, key.1 h5⟩
  · exact .inr ⟨m, h1, fun h => h2 (key.2 h)⟩

/-- C23: the decoder returns (no panic) whenever the sizes fit u32. -/
theorem C23_raster_total (data : List Byte) (w h : Nat) (asBits : Bool) (stretch : Byte × Byte) (hf : Fits w h stretch)
    (color : RGBA) (flow : ImageFlow) : ∃ g, imageFromRaster w h stretch color flow data asBits = .ok g := by
  by_cases hl : (if asBits then unpackBytes data w h else data).length = w * h
  · obtain ⟨i, hi, _⟩ := imageFromRaster_shows (Shows.self hl) stretch hf color flow
    exact ⟨_, hi⟩
  · unfold imageFromRaster
    rw [mulU32, if_pos hf.wh]
    show ∃ g, (if (if asBits = true then unpackBytes data w h else data).length ≠ w * h then _ else _) = _
    rw [if_pos hl]; exact ⟨_, rfl⟩

theorem multiLayers_sized {w h : Nat} {stretch : Byte × Byte} {colors : RenderColors} {flow : ImageFlow}
    {data : List Byte} {asBits : Bool} {p : Nat} {ns : List Nat} {imgs : List Image}
    (hr : multiLayers w h stretch colors flow data asBits p ns = .ok (.ok imgs)) :
    ∀ i ∈ imgs, i.pixels.length = i.w * i.h := by
  induction ns generalizing imgs with
  | nil => cases hr; intro i hi; cases hi
  | cons n ns ih =>
    rw [multiLayers] at hr
    cases h1 : idx data (n * p) with
    | error e => rw [h1] at hr; cases hr
    | ok c =>
      rw [h1] at hr
      change (slice _ _ _ >>= _) = _ at hr
      cases h2 : slice data (n * p + 1) (n * p + p) with
      | error e => rw [h2] at hr; cases hr
      | ok sl =>
        rw [h2] at hr
        change (imageFromRaster w h stretch (colors.colorFor c) flow sl asBits >>= _) = _ at hr
        cases h3 : imageFromRaster w h stretch (colors.colorFor c) flow sl asBits with
        | error e => rw [h3] at hr; cases hr
        | ok g =>
          rw [h3] at hr
          rcases imageFromRaster_sized h3 with ⟨i, rfl, hi, _⟩ | ⟨m, rfl, _⟩
          · change (multiLayers w h stretch colors flow data asBits p ns >>= _) = _ at hr
            cases h4 : multiLayers w h stretch colors flow data asBits p ns with
            | error e => rw [h4] at hr; cases hr
            | ok r =>
              rw [h4] at hr
              cases r with
              | error m => cases hr
              | ok rest =>
                cases hr
                intro j hj
                rcases List.mem_cons.1 hj with rfl | hj
                · exact hi
                · exact ih h4 j hj
          · cases hr

/-- C23 (merging).  Merging full pictures never panics and gives a full picture of the first one's size. -/
theorem C23_merge (layers : List Image) (hs : ∀ l ∈ layers, l.pixels.length = l.w * l.h) :
    ∃ r, mergeLayers layers = .ok r ∧ ∀ i, r = .ok i → i.pixels.length = i.w * i.h ∧
      ∀ l, layers.head? = some l → i.w = l.w ∧ i.h = l.h := by
  cases layers with
  | nil => exact ⟨_, rfl, fun i h => by cases h⟩
  | cons l ls =>
    have hm : mergeLayers (l :: ls) = mergeRest l ls := by cases ls <;> rfl
    obtain ⟨r, h1, h2⟩ := mergeRest_sized (ls := ls) (hs l (by simp)) (fun l hl => hs l (by simp [hl]))
    refine ⟨r, by rw [hm, h1], fun i hi => ?_⟩
    obtain ⟨a, b, c⟩ := h2 i hi
    exact ⟨a, fun l' hl' => by cases hl'; exact ⟨b, c⟩⟩

/-- C23 (multi colour raster). -/
theorem C23_multi (data : List Byte) (w h : Nat) (asBits : Bool) (stretch : Byte × Byte) (n : Byte)
    (colors : RenderColors) (flow : ImageFlow) (i : Image)
    (hr : imageFromRasterMulti w h stretch n colors flow data asBits = .ok (.image i)) :
    i.pixels.length = i.w * i.h ∧ data.length = ((if asBits then w / 8 else w) * h + 1) * n.toNat := by
  unfold imageFromRasterMulti at hr
  have hp : (if asBits = true then w / 8 * h + 1 else w * h + 1) = (if asBits then w / 8 else w) * h + 1 := by
    cases asBits <;> rfl
  rw [hp] at hr
  revert hr
  generalize (if asBits then w / 8 else w) * h + 1 = p
  intro hr
  dsimp only at hr
  split at hr
  · cases hr
  · rename_i hlen
    cases h1 : multiLayers w h stretch colors flow data asBits p (List.range n.toNat) with
    | error e => rw [h1] at hr; cases hr
    | ok r =>
      rw [h1] at hr
      cases r with
      | error m => cases hr
      | ok layers =>
        obtain ⟨m, hm, hsz⟩ := C23_merge layers (multiLayers_sized h1)
        change (mergeLayers layers >>= _) = _ at hr
        rw [hm] at hr
        cases m with
        | error m => cases hr
        | ok j =>
          cases hr
          exact ⟨(hsz _ rfl).1, Decidable.not_not.1 hlen⟩

/-- C23 (column), **partial**: an image comes out only of complete data and has w·h pixels; too much data gives an
Error value.  Missing: too little data does not give an Error value, it panics (next theorem). -/
theorem C23_column_partial (data : List Byte) (w h : Nat) (stretch : Byte × Byte) (color : RGBA) (flow : ImageFlow)
    (g : GraphicsCommand) (hr : imageFromColumn w h stretch color flow data = .ok g) :
    (∃ i, g = .image i ∧ i.pixels.length = i.w * i.h ∧ i.w = w * max stretch.1.toNat 1 ∧
      i.h = h * max stretch.2.toNat 1 ∧ data.length = rowBytes h * w) ∨
    (∃ m, g = .error m ∧ data.length ≠ rowBytes h * w) := by
  unfold imageFromColumn at hr
  cases h1 : columnToBytes data w h with
  | error e => rw [h1] at hr; cases hr
  | ok px =>
    rw [h1] at hr
    change imageFromRaster w h stretch color flow px false = .ok g at hr
    have hl : px.length = (unpackBytes data h w).length := by
      unfold columnToBytes at h1
      cases h2 : rotate90 (unpackBytes data h w) h w with
      | error e => dsimp only at h1; rw [h2] at h1; cases h1
      | ok r =>
        dsimp only at h1; rw [h2] at h1
        change flipRightToLeft r w h = .ok px at h1
        have keep : ∀ (d init out : List Byte) (a b : Nat) (dest : Nat → Nat → Nat),
            (forRange b init fun r y => forRange a r fun r x => do
              let v ← idx d (y * a + x)
              setIdx r (dest y x) v) = .ok out → out.length = init.length := by
          intro d init out a b dest ho
          have inner : ∀ {body : List Byte → Nat → Rs (List Byte)}, (∀ s i s', body s i = .ok s' → s'.length = s.length) →
              ∀ (is : List Nat) (s s' : List Byte), is.foldlM body s = .ok s' → s'.length = s.length := by
            intro body hb is
            induction is with
            | nil => intro s s' h; cases h; rfl
            | cons i is ih =>
              intro s s' h
              rw [List.foldlM_cons] at h
              cases hbi : body s i with
              | error e => rw [hbi] at h; cases h
              | ok t =>
                rw [hbi] at h
                rw [ih t s' h, hb s i t hbi]
          refine inner (fun s y s' h => inner (fun s x s' h => ?_) _ s s' h) _ init out ho
          cases hv : idx d (y * a + x) with
          | error e => rw [hv] at h; cases h
          | ok v =>
            rw [hv] at h
            change setIdx s (dest y x) v = .ok s' at h
            unfold setIdx at h
            split at h
            · cases h; simp
            · cases h
        have e1 := keep _ _ _ _ _ _ h1
        have e2 := keep _ _ _ _ _ _ h2
        simp only [List.length_replicate] at e1 e2
        omega
    have hu : px.length = w * h ↔ data.length = rowBytes h * w := by
      rw [hl, Nat.mul_comm w h]; exact unpack_length_iff data h w
    rcases C23_raster _ _ _ _ _ _ _ _ hr with ⟨i, a, b, c, d, e⟩ | ⟨m, a, b⟩
    · exact .inl ⟨i, a, b, c, d, hu.1 e⟩
    · exact .inr ⟨m, a, fun h => b (hu.2 h)⟩

/-- Negation of the missing part of C23: a column image with too little data always panics. -/
theorem C23_column_short_panics (data : List Byte) (w h : Nat) (hs : data.length < rowBytes h * w) (stretch : Byte × Byte)
    (color : RGBA) (flow : ImageFlow) : ∃ e, imageFromColumn w h stretch color flow data = .error e := by
  have hshort : (unpackBytes data h w).length < h * w := by
    have hh : 0 < h := by
      rcases Nat.eq_zero_or_pos h with h0 | h0
      · subst h0; simp [rowBytes] at hs
      · exact h0
    obtain ⟨p1, p2, p3, p4⟩ := padOf_bounds hh
    have hlen := unpackLoop_length hh data 0 p4
    rw [Nat.mul_zero, Nat.add_zero, Nat.add_zero] at hlen
    show (unpackLoop h (padOf h) data 0).length < _
    rw [hlen]
    have hq : data.length / rowBytes h < w := Nat.div_lt_of_lt_mul hs
    have hr := Nat.mod_lt data.length p4
    have := rm_lt (w := h) (h := w) (x := data.length % rowBytes h * 8) (y := data.length / rowBytes h) (by omega) hq
    exact this
  obtain ⟨e, he⟩ := grid_copy_short (init := List.replicate (unpackBytes data h w).length 0)
    (dest := fun y x => x * w + (w - 1 - y)) hshort
  refine ⟨e, ?_⟩
  have hc : columnToBytes data w h = .error e := by
    unfold columnToBytes
    dsimp only
    show (rotate90 (unpackBytes data h w) h w >>= _) = _
    have : rotate90 (unpackBytes data h w) h w = .error e := he
    rw [this]; rfl
  unfold imageFromColumn
  rw [hc]; rfl

example : ([1] : List Byte).length < rowBytes 16 * 1 := by decide

/-! ### C24 -/

/-- **C24**.  Merging pictures of one size whose dots are on (alpha 255) or off (alpha 0): every dot of the result is
that of the last picture in which it is on, else the first picture's. -/
theorem C24_merge (w h : Nat) (first : Image) (later : List Image)
    (hs : ∀ l ∈ first :: later, l.w = w ∧ l.h = h ∧ l.pixels.length = w * h)
    (hbits : ∀ l ∈ later, ∀ p ∈ l.pixels, p.a = 0 ∨ p.a = 255) :
    ∃ i, mergeLayers (first :: later) = .ok (.ok i) ∧ i.w = w ∧ i.h = h ∧ i.pixels.length = w * h ∧
      i.x = first.x ∧ i.y = first.y ∧ i.flow = first.flow ∧
      ∀ j, j < w * h → i.pixels[j]? =
        (first.pixels[j]?).map (fun c => topDot c (later.filterMap (fun l => l.pixels[j]?))) := by
  obtain ⟨r, h1, h2, h3⟩ := mergeLayers_ok (w := w) (h := h) (l := first) (ls := later) hs
  obtain ⟨hw, hh, _⟩ := hs first (by simp)
  refine ⟨_, h1, hw, hh, h2, rfl, rfl, rfl, fun j _ => ?_⟩
  show r[j]? = _
  rw [h3 j]
  congr 1
  funext c
  apply paintAll_bits
  intro f hf
  obtain ⟨l, hl, hlf⟩ := List.mem_filterMap.1 hf
  exact hbits l hl f (List.mem_of_getElem? hlf)

example : (mergeLayers [⟨[⟨9, 9, 9, 255⟩, ⟨9, 9, 9, 0⟩], 0, 0, 2, 1, .none, false⟩,
    ⟨[⟨1, 1, 1, 255⟩, ⟨1, 1, 1, 255⟩], 0, 0, 2, 1, .none, false⟩,
    ⟨[⟨2, 2, 2, 0⟩, ⟨2, 2, 2, 255⟩], 0, 0, 2, 1, .none, false⟩]) =
    .ok (.ok ⟨[⟨1, 1, 1, 255⟩, ⟨2, 2, 2, 255⟩], 0, 0, 2, 1, .none, false⟩) := by decide +kernel

/-- C24, end to end: a multi-colour raster image made of any number of colour planes (each a colour byte and the bits
of a w × h picture, w a multiple of eight) shows on every dot the colour of the last plane with that bit set. -/
theorem C24_multi_colour (w h : Nat) (stretch : Byte × Byte) (hf : Fits w h stretch) (colors : RenderColors)
    (flow : ImageFlow) (planes : List (Byte × List Byte)) (h8 : w % 8 = 0) (hne : planes ≠ [])
    (hlen : planes.length ≤ 255) (hb : ∀ l ∈ planes, l.2.length = rowBytes w * h) :
    ∃ i, imageFromRasterMulti w h stretch (UInt8.ofNat planes.length) colors flow
        (planes.flatMap fun l => l.1 :: l.2) true = .ok (.image i) ∧
      i.w = w * max stretch.1.toNat 1 ∧ i.h = h * max stretch.2.toNat 1 ∧ i.x = 0 ∧ i.y = 0 ∧ i.flow = flow ∧
      Shows i.pixels i.w i.h
        (fun x y => topLayer colors planes w (x / max stretch.1.toNat 1) (y / max stretch.2.toNat 1)) :=
  multi_ok hf colors flow h8 hne hlen hb

example : Fits 8 1 (1, 1) ∧ (8 % 8 = 0) ∧ ([(1, [0xF0]), (2, [0x0F])] : List (Byte × List Byte)) ≠ [] ∧
    ∀ l ∈ ([(1, [0xF0]), (2, [0x0F])] : List (Byte × List Byte)), l.2.length = rowBytes 8 * 1 := by
  refine ⟨⟨by decide, by decide, by decide⟩, rfl, by simp, by decide⟩

/-- Finding: for a width that is not a multiple of eight a multi-colour image with complete planes is rejected. -/
theorem C24_multi_odd_width_rejected (colors : RenderColors) (flow : ImageFlow) :
    imageFromRasterMulti 9 1 (1, 1) 1 colors flow [1, 0xFF, 0x80] true =
      .ok (.error "Not enough data to parse raster image multi color") := rfl

/-! ### C48 -/

/-- **C48**.  Blending an opaque colour replaces the pixel, a transparent one leaves it unchanged, also in
multiply mode. -/
theorem C48_alpha (c fg : RGBA) :
    (fg.a = 255 → c.blend fg = fg) ∧ (fg.a = 0 → c.blend fg = c) ∧ (fg.a = 0 → c.multiply fg = c) :=
  ⟨blend_opaque c fg, blend_transparent c fg, fun h => by unfold RGBA.multiply; rw [if_pos h]⟩

/-- C48: opaque multiply on white paper shows the colour, multiplying with white changes no colour channel, and
multiplying with black gives black: a white dot never erases a black one. -/
theorem C48_multiply (c fg : RGBA) (ha : fg.a = 255) :
    ((c.r = 255 ∧ c.g = 255 ∧ c.b = 255) → c.multiply fg = { fg with a := c.a }) ∧
    ((fg.r = 255 ∧ fg.g = 255 ∧ fg.b = 255) → c.multiply fg = c) ∧
    ((c.r = 0 ∧ c.g = 0 ∧ c.b = 0) → c.multiply fg = c) ∧
    ((fg.r = 0 ∧ fg.g = 0 ∧ fg.b = 0) → c.multiply fg = ⟨0, 0, 0, c.a⟩) := by
  have e : ∀ n : Nat, n < 256 → UInt8.ofNat ((2 * (255 * n * 255) + 65025) / 130050) = UInt8.ofNat n := by decide +kernel
  have m1 : ∀ x : Byte, mulChan 255 x 255 = x := by
    intro x; rw [mulChan_eq]
    have := e x.toNat (UInt8.toNat_lt x)
    rw [UInt8.ofNat_toNat] at this; exact this
  have m2 : ∀ x : Byte, mulChan x 255 255 = x := by
    intro x; have := m1 x; rw [mulChan_eq] at this ⊢
    rw [Nat.mul_comm x.toNat]; exact this
  have m3 : ∀ x : Byte, mulChan 0 x 255 = 0 := by intro x; rw [mulChan_eq]; simp
  have m4 : ∀ x : Byte, mulChan x 0 255 = 0 := by intro x; rw [mulChan_eq]; simp
  have hne : ¬ fg.a = 0 := by rw [ha]; decide
  unfold RGBA.multiply
  rw [if_neg hne, ha]
  obtain ⟨r, g, b, a⟩ := c
  obtain ⟨r', g', b', a'⟩ := fg
  refine ⟨?_, ?_, ?_, ?_⟩ <;> rintro ⟨h1, h2, h3⟩ <;> simp only at h1 h2 h3 ha <;> subst h1 h2 h3 <;>
    simp [m1, m2, m3, m4]

/-- C48: blending stays between the two colours, channel by channel (no overflow, no wrap-around). -/
theorem C48_between (fg bg a : Byte) :
    min fg.toNat bg.toNat ≤ (blendChan fg bg a).toNat ∧ (blendChan fg bg a).toNat ≤ max fg.toNat bg.toNat := by
  have hf := UInt8.toNat_lt fg
  have hb := UInt8.toNat_lt bg
  have ha := UInt8.toNat_lt a
  have lo : min fg.toNat bg.toNat * 255 ≤ fg.toNat * a.toNat + bg.toNat * (255 - a.toNat) := by
    have e : min fg.toNat bg.toNat * 255 = min fg.toNat bg.toNat * a.toNat + min fg.toNat bg.toNat * (255 - a.toNat) := by
      rw [← Nat.mul_add]; congr 1; omega
    rw [e]
    exact Nat.add_le_add (Nat.mul_le_mul_right _ (Nat.min_le_left ..)) (Nat.mul_le_mul_right _ (Nat.min_le_right ..))
  have up : fg.toNat * a.toNat + bg.toNat * (255 - a.toNat) ≤ max fg.toNat bg.toNat * 255 := by
    have e : max fg.toNat bg.toNat * 255 = max fg.toNat bg.toNat * a.toNat + max fg.toNat bg.toNat * (255 - a.toNat) := by
      rw [← Nat.mul_add]; congr 1; omega
    rw [e]
    exact Nat.add_le_add (Nat.mul_le_mul_right _ (Nat.le_max_left ..)) (Nat.mul_le_mul_right _ (Nat.le_max_right ..))
  rw [blendChan_eq]
  generalize fg.toNat * a.toNat + bg.toNat * (255 - a.toNat) = s at lo up ⊢
  have hq : (2 * s + 255) / 510 < 256 := by omega
  have : (UInt8.ofNat ((2 * s + 255) / 510)).toNat = (2 * s + 255) / 510 := by simp; omega
  rw [this]
  omega

example : (⟨255, 255, 255, 255⟩ : RGBA).blend ⟨10, 20, 30, 255⟩ = ⟨10, 20, 30, 255⟩ ∧
    (⟨0, 0, 0, 255⟩ : RGBA).multiply ⟨255, 255, 255, 255⟩ = ⟨0, 0, 0, 255⟩ := by decide +kernel

/-! ### C66 -/

/-- C66, **partial**: in every decoded bit image the set dots are opaque, the others transparent, and all have the red
and green of the colour the image is printed with; blue is right exactly when the colour's green and blue agree.
Missing: blue is copied from green (`with_alpha`, graphics.rs:37), so the full claim is false for the default third
colour (next theorem). -/
theorem C66_dot_colour_partial (data : List Byte) (w h : Nat) (hl : data.length = rowBytes w * h) (stretch : Byte × Byte)
    (hf : Fits w h stretch) (color : RGBA) (flow : ImageFlow) :
    ∃ i, imageFromRaster w h stretch color flow data true = .ok (.image i) ∧
      ∀ x y, x < i.w → y < i.h → ∃ p, i.pixels[y * i.w + x]? = some p ∧ p.r = color.r ∧ p.g = color.g ∧
        p.a = dot (rasterBit data w (x / max stretch.1.toNat 1) (y / max stretch.2.toNat 1)) ∧
        (p.b = color.b ↔ color.g = color.b) := by
  obtain ⟨i, hi, _, _, _, _, _, _, hs⟩ := imageFromRaster_shows (asBits := true) (unpack_shows data w h hl) stretch hf color flow
  exact ⟨i, hi, fun x y hx hy => ⟨_, hs.2 x y hx hy, rfl, rfl, rfl, Iff.rfl⟩⟩

/-- Negation of the full C66: a one-dot image printed in the default third colour (27,57,169) is (27,57,57). -/
theorem C66_colour_wrong : imageFromRaster 8 1 (1, 1) ⟨27, 57, 169, 255⟩ .block [0x80] true =
    .ok (.image ⟨⟨27, 57, 57, 255⟩ :: List.replicate 7 ⟨27, 57, 57, 0⟩, 0, 0, 8, 1, .block, false⟩) := by decide +kernel

end Thermal
