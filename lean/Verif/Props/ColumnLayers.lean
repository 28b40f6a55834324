import Verif.Model.ColumnLayers
import Verif.Proofs.Pen
/-
C91: pictures in columns with several colours.
-/
namespace Thermal

/-- The second layer cannot be cut out of the data: the cut would end before it begins. -/
theorem second_layer {w h st colors flow data perLayer n ns r} (hp : 1 ≤ perLayer) (hn : 1 ≤ n) :
    columnLayers w h st colors flow data perLayer (n :: ns) ≠ .ok r := by
  intro e
  simp only [columnLayers, bind_ok] at e
  obtain ⟨_, _, d, hd, _⟩ := e
  have : perLayer ≤ n * perLayer := Nat.le_mul_of_pos_left _ hn
  unfold slice at hd
  rw [if_neg (by omega)] at hd
  cases hd

/-- C91. The decoder for pictures in columns with several colours never gives a picture, whatever it is given: for data of the size it asks for it
gives an error or panics. -/
theorem C91_never_a_picture (width height : Nat) (stretch : Byte × Byte) (numColors : Byte) (colors : RenderColors) (flow : ImageFlow)
    (data : List Byte) (i : Image) : imageFromColumnMulti width height stretch numColors colors flow data ≠ .ok (.image i) := by
  intro e
  unfold imageFromColumnMulti at e
  dsimp only at e
  split at e
  · rw [pure_ok] at e; cases e
  · rename_i hl
    have hl : data.length = (width / 8 * height + 1 + 1) * numColors.toNat := by simpa using hl
    simp only [bind_ok] at e
    obtain ⟨r, h1, h2⟩ := e
    by_cases hz : numColors.toNat = 0
    · rw [hz] at hl h1
      have : data = [] := List.length_eq_zero_iff.1 (by simpa using hl)
      subst this
      simp only [columnLayers, List.range_succ_eq_map, bind_ok] at h1
      obtain ⟨_, h1, _⟩ := h1
      cases h1
    · obtain ⟨k, hk⟩ := Nat.exists_eq_succ_of_ne_zero hz
      rw [hk, List.range_succ_eq_map, List.range_succ_eq_map, List.map_cons] at h1
      rw [columnLayers] at h1
      generalize hns : Nat.succ 0 :: List.map Nat.succ (List.map Nat.succ (List.range k)) = ns at h1
      simp only [bind_ok] at h1
      obtain ⟨_, _, _, _, _, _, layer, _, h1⟩ := h1
      subst hns
      cases layer with
      | error m => simp only [pure_ok] at h1; subst h1; simp only [pure_ok] at h2; cases h2
      | image j =>
        simp only [bind_ok] at h1
        obtain ⟨r2, h3, _⟩ := h1
        exact second_layer (by omega) (by omega) h3
      | barcode b => exact second_layer (by omega) (by omega) h1
      | code2d b => exact second_layer (by omega) (by omega) h1
      | rectangle b => exact second_layer (by omega) (by omega) h1

/-- C91, what holds: data of another size than the one asked for is answered with an error, not with a panic. -/
theorem C91_size_partial (width height : Nat) (stretch : Byte × Byte) (numColors : Byte) (colors : RenderColors) (flow : ImageFlow)
    (data : List Byte) (hl : data.length ≠ (width / 8 * height + 2) * numColors.toNat) :
    ∃ m, imageFromColumnMulti width height stretch numColors colors flow data = .ok (.error m) := by
  refine ⟨"Not enough data to parse raster image", ?_⟩
  unfold imageFromColumnMulti
  dsimp only
  rw [if_pos hl]; rfl

/-- C91, a picture of 8 × 8 dots in one colour: with one byte for the colour and eight for the columns it is refused, and with the number of bytes
asked for the decoder panics. -/
theorem C91_one_layer (colors : RenderColors) :
    imageFromColumnMulti 8 8 (1, 1) 1 colors .block (49 :: [128, 64, 32, 16, 8, 4, 2, 1]) = .ok (.error "Not enough data to parse raster image") ∧
    ∃ p, imageFromColumnMulti 8 8 (1, 1) 1 colors .block (49 :: [128, 64, 32, 16, 8, 4, 2, 1] ++ [0]) = .error p := by
  refine ⟨rfl, _, rfl⟩

end Thermal
