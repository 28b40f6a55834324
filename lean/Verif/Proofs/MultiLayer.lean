import Verif.Proofs.Graphics
import Verif.Spec.Image
import Verif.Proofs.Ink
/-
Multi-colour images: cutting the data into layers and painting them.
-/
namespace Thermal
open Spec

theorem flatten_drop {α : Type} {p : Nat} (ls : List (List α)) (h : ∀ l ∈ ls, l.length = p) (n : Nat) :
    ls.flatten.drop (n * p) = (ls.drop n).flatten := by
  induction ls generalizing n with
  | nil => simp
  | cons l ls ih =>
    cases n with
    | zero => simp
    | succ n =>
      have hl := h l (by simp)
      rw [List.flatten_cons, List.drop_append, List.drop_of_length_le (by rw [hl, Nat.add_mul]; omega)]
      rw [hl, show (n + 1) * p - p = n * p by rw [Nat.add_mul]; omega]
      simpa using ih (fun l hl => h l (by simp [hl])) n

theorem flatten_length {α : Type} {p : Nat} (ls : List (List α)) (h : ∀ l ∈ ls, l.length = p) :
    ls.flatten.length = p * ls.length := by
  induction ls with
  | nil => simp
  | cons l ls ih =>
    rw [List.flatten_cons, List.length_append, h l (by simp), ih (fun l hl => h l (by simp [hl]))]
    rw [List.length_cons, Nat.mul_add]; omega

theorem flatten_row {α : Type} {p : Nat} (ls : List (List α)) (h : ∀ l ∈ ls, l.length = p) (n : Nat) (hn : n < ls.length) :
    ∃ rest, ls.flatten.drop (n * p) = ls[n] ++ rest := by
  rw [flatten_drop ls h n, List.drop_eq_getElem_cons hn]
  exact ⟨_, List.flatten_cons ..⟩

/-- The n-th layer is read back from the joined data. -/
theorem layer_read {p : Nat} {layers : List (Byte × List Byte)} (hp : ∀ l ∈ layers, l.2.length + 1 = p) (n : Nat)
    (hn : n < layers.length) :
    idx (layers.flatMap fun l => l.1 :: l.2) (n * p) = .ok layers[n].1 ∧
    slice (layers.flatMap fun l => l.1 :: l.2) (n * p + 1) (n * p + p) = .ok layers[n].2 := by
  have hrows : ∀ r ∈ layers.map (fun l => l.1 :: l.2), r.length = p := by
    intro r hr
    obtain ⟨l, hl, rfl⟩ := List.mem_map.1 hr
    simpa using hp l hl
  have hfm : (layers.flatMap fun l => l.1 :: l.2) = (layers.map (fun l => l.1 :: l.2)).flatten := by
    rw [List.flatMap_def]
  obtain ⟨rest, hr⟩ := flatten_row _ hrows n (by simpa using hn)
  rw [← hfm] at hr
  simp only [List.getElem_map, List.cons_append] at hr
  have hlen := hp layers[n] (List.getElem_mem hn)
  generalize hD : (layers.flatMap fun l => l.1 :: l.2) = D at hr
  have hDl : D.length = p * layers.length := by
    rw [← hD, hfm, flatten_length _ hrows]; simp
  have hle : n * p + p ≤ D.length := by
    rw [hDl, Nat.mul_comm p]
    have : (n + 1) * p ≤ layers.length * p := Nat.mul_le_mul_right p hn
    rw [Nat.add_mul] at this; omega
  constructor
  · have : D[n * p]? = some layers[n].1 := by
      have := congrArg (fun l => l[0]?) hr
      simpa [List.getElem?_drop] using this
    simp [idx, this]
  · rw [slice, if_pos ⟨by omega, hle⟩]
    congr 1
    have h1 : D.drop (n * p + 1) = layers[n].2 ++ rest := by
      rw [← List.drop_drop, hr]; rfl
    rw [List.drop_take, h1, show n * p + p - (n * p + 1) = layers[n].2.length by omega]
    simp

/-- What one decoded layer looks like. -/
def LayerOk (colors : RenderColors) (w h : Nat) (stretch : Byte × Byte) (flow : ImageFlow) (l : Byte × List Byte)
    (i : Image) : Prop :=
  i.w = w * max stretch.1.toNat 1 ∧ i.h = h * max stretch.2.toNat 1 ∧ i.x = 0 ∧ i.y = 0 ∧ i.flow = flow ∧
  i.upsideDown = false ∧
  Shows i.pixels i.w i.h (fun x y => (colors.colorFor l.1).withAlpha
    (dot (rasterBit l.2 w (x / max stretch.1.toNat 1) (y / max stretch.2.toNat 1))))

theorem multiLayers_ok {w h : Nat} {stretch : Byte × Byte} (hf : Fits w h stretch) (colors : RenderColors)
    (flow : ImageFlow) {p : Nat} {layers : List (Byte × List Byte)} (hp : ∀ l ∈ layers, l.2.length + 1 = p)
    (hb : ∀ l ∈ layers, l.2.length = rowBytes w * h) (ns : List Nat) (hns : ∀ n ∈ ns, n < layers.length) :
    ∃ imgs, multiLayers w h stretch colors flow (layers.flatMap fun l => l.1 :: l.2) true p ns = .ok (.ok imgs) ∧
      imgs.length = ns.length ∧
      ∀ (k n : Nat), ns[k]? = some n → ∃ l i, layers[n]? = some l ∧ imgs[k]? = some i ∧ LayerOk colors w h stretch flow l i := by
  induction ns with
  | nil => exact ⟨[], rfl, rfl, fun k n h => by simp at h⟩
  | cons n ns ih =>
    obtain ⟨imgs, h1, h2, h3⟩ := ih (fun m hm => hns m (by simp [hm]))
    have hn := hns n (by simp)
    obtain ⟨r1, r2⟩ := layer_read hp n hn
    obtain ⟨i, hi, hrest⟩ := imageFromRaster_shows (asBits := true) (data := layers[n].2)
      (unpack_shows layers[n].2 w h (hb _ (List.getElem_mem hn))) stretch hf (colors.colorFor layers[n].1) flow
    refine ⟨i :: imgs, ?_, by simp [h2], ?_⟩
    · rw [multiLayers, r1]
      show (slice _ _ _ >>= _) = _
      rw [r2]
      show (imageFromRaster w h stretch (colors.colorFor layers[n].1) flow layers[n].2 true >>= _) = _
      rw [hi]
      show (multiLayers w h stretch colors flow _ true p ns >>= _) = _
      rw [h1]; rfl
    · intro k m hk
      cases k with
      | zero =>
        simp at hk; subst hk
        exact ⟨layers[n], i, by simp [hn], by simp, hrest⟩
      | succ k => simpa using h3 k m (by simpa using hk)

theorem filterMap_zip {α β γ : Type} (ls : List α) (is : List β) (hl : is.length = ls.length) (R : α → β → Prop)
    (g : α → γ) (q : β → Option γ) (hR : ∀ (k : Nat) l i, ls[k]? = some l → is[k]? = some i → R l i)
    (hq : ∀ l i, R l i → q i = some (g l)) : is.filterMap q = ls.map g := by
  induction ls generalizing is with
  | nil => simp at hl; subst hl; rfl
  | cons l ls ih =>
    cases is with
    | nil => simp at hl
    | cons i is =>
      rw [List.filterMap_cons, hq l i (hR 0 l i (by simp) (by simp)), List.map_cons]
      show g l :: _ = _
      congr 1
      exact ih is (by simpa using hl) (fun k l i h1 h2 => hR (k + 1) l i (by simpa using h1) (by simpa using h2))

theorem dot_alpha (c : RGBA) (b : Bool) : (c.withAlpha (dot b)).a = dot b := rfl

theorem multi_ok {w h : Nat} {stretch : Byte × Byte} (hf : Fits w h stretch) (colors : RenderColors) (flow : ImageFlow)
    {layers : List (Byte × List Byte)} (h8 : w % 8 = 0) (hne : layers ≠ []) (hlen : layers.length ≤ 255)
    (hb : ∀ l ∈ layers, l.2.length = rowBytes w * h) :
    ∃ i, imageFromRasterMulti w h stretch (UInt8.ofNat layers.length) colors flow
        (layers.flatMap fun l => l.1 :: l.2) true = .ok (.image i) ∧
      i.w = w * max stretch.1.toNat 1 ∧ i.h = h * max stretch.2.toNat 1 ∧ i.x = 0 ∧ i.y = 0 ∧ i.flow = flow ∧
      Shows i.pixels i.w i.h (fun x y => topLayer colors layers w (x / max stretch.1.toNat 1) (y / max stretch.2.toNat 1)) := by
  have hrb : rowBytes w = w / 8 := by unfold rowBytes; omega
  have hp : ∀ l ∈ layers, l.2.length + 1 = w / 8 * h + 1 := fun l hl => by rw [hb l hl, hrb]
  have hnum : (UInt8.ofNat layers.length).toNat = layers.length := by simp; omega
  obtain ⟨imgs, h1, h2, h3⟩ := multiLayers_ok hf colors flow hp hb (List.range layers.length) (by simp)
  have hdl : (layers.flatMap fun l => l.1 :: l.2).length = (w / 8 * h + 1) * layers.length := by
    rw [List.flatMap_def]
    have := flatten_length (p := w / 8 * h + 1) (layers.map (fun l => l.1 :: l.2)) (by
      intro r hr
      obtain ⟨l, hl, rfl⟩ := List.mem_map.1 hr
      simpa using hp l hl)
    simpa using this
  have hR : ∀ (k : Nat) l i, layers[k]? = some l → imgs[k]? = some i → LayerOk colors w h stretch flow l i := by
    intro k l i hl hi
    have hk : k < layers.length := by
      by_contra hc
      rw [List.getElem?_eq_none (by omega)] at hl; cases hl
    obtain ⟨l', i', a, b, c⟩ := h3 k k (List.getElem?_range hk)
    rw [hl] at a; rw [hi] at b
    cases a; cases b; exact c
  have hil : imgs.length = layers.length := by simpa using h2
  cases imgs with
  | nil => simp at hil; exact absurd (List.length_eq_zero_iff.1 hil.symm) hne
  | cons i0 is =>
  cases layers with
  | nil => exact absurd rfl hne
  | cons l0 ls =>
  have h0 := hR 0 l0 i0 (by simp) (by simp)
  obtain ⟨r, m1, m2, m3⟩ := mergeLayers_ok (w := w * max stretch.1.toNat 1) (h := h * max stretch.2.toNat 1) (l := i0)
    (ls := is) (by
      intro i hi
      obtain ⟨k, hk, rfl⟩ := List.getElem_of_mem hi
      have hk' : k < (l0 :: ls).length := by rw [← hil]; exact hk
      obtain ⟨a, b, _, _, _, _, c⟩ := hR k _ _ (List.getElem?_eq_getElem hk') (List.getElem?_eq_getElem hk)
      exact ⟨a, b, by rw [c.1, a, b]⟩)
  refine ⟨{ i0 with pixels := r }, ?_, h0.1, h0.2.1, h0.2.2.1, h0.2.2.2.1, h0.2.2.2.2.1, ?_⟩
  · unfold imageFromRasterMulti
    dsimp only
    rw [if_pos rfl, hnum, hdl, if_neg (by simp)]
    show (multiLayers w h stretch colors flow _ true (w / 8 * h + 1) _ >>= _) = _
    rw [h1]
    show (mergeLayers (i0 :: is) >>= _) = _
    rw [m1]; rfl
  · refine ⟨by show r.length = i0.w * i0.h; rw [m2, h0.1, h0.2.1], fun x y hx hy => ?_⟩
    change x < i0.w at hx
    change y < i0.h at hy
    show r[y * i0.w + x]? = _
    rw [m3, h0.2.2.2.2.2.2.2 x y hx hy]
    let X := x / max stretch.1.toNat 1
    let Y := y / max stretch.2.toNat 1
    have hfm : is.filterMap (fun l => l.pixels[y * i0.w + x]?) =
        ls.map (fun l => (colors.colorFor l.1).withAlpha (dot (rasterBit l.2 w X Y))) := by
      refine filterMap_zip ls is (by simpa using hil) (LayerOk colors w h stretch flow) _ _ ?_ ?_
      · intro k l i h1 h2
        exact hR (k + 1) l i (by simpa using h1) (by simpa using h2)
      · intro l i hLi
        have hw : i.w = i0.w := by rw [hLi.1, h0.1]
        have hh : i.h = i0.h := by rw [hLi.2.1, h0.2.1]
        have := hLi.2.2.2.2.2.2.2 x y (by omega) (by omega)
        rwa [hw] at this
    simp only [Option.map_some]
    rw [hfm]
    congr 1
    show paintAll ((colors.colorFor l0.1).withAlpha (dot (rasterBit l0.2 w X Y))) _ = topLayer colors (l0 :: ls) w X Y
    rw [paintAll_bits (by
      intro f hf
      obtain ⟨l, hl, rfl⟩ := List.mem_map.1 hf
      rw [dot_alpha]; cases rasterBit l.2 w X Y <;> simp [dot])]
    unfold topLayer
    simp only [← colorFor_ink]
    rw [List.filter_map, List.getLast?_map]
    have hfe : ((fun f : RGBA => decide (f.a = 255)) ∘
        fun l : Byte × List Byte => (colors.colorFor l.1).withAlpha (dot (rasterBit l.2 w X Y))) =
        fun l => rasterBit l.2 w X Y := by
      funext l
      show decide (dot (rasterBit l.2 w X Y) = 255) = _
      cases rasterBit l.2 w X Y <;> rfl
    rw [hfe]
    have hlast : ∀ l, (ls.filter (fun l => rasterBit l.2 w X Y)).getLast? = some l → rasterBit l.2 w X Y = true := by
      intro l hl
      exact (List.mem_filter.1 (List.mem_of_getLast? hl)).2
    cases hb0 : rasterBit l0.2 w X Y with
    | false =>
      rw [List.filter_cons_of_neg (by simp [hb0])]
      cases hg : (ls.filter (fun l => rasterBit l.2 w X Y)).getLast? with
      | none => rfl
      | some l => show _ = _; simp [hlast l hg, dot]
    | true =>
      rw [List.filter_cons_of_pos (by simp [hb0]), List.getLast?_cons]
      cases hg : (ls.filter (fun l => rasterBit l.2 w X Y)).getLast? with
      | none => rfl
      | some l => show _ = _; simp [hlast l hg, dot]

end Thermal
