import Verif.Model.Graphics
/-
A decoder of the crate that none of its commands uses.
-/
namespace Thermal

/-- graphics.rs:203-221: the loop over the layers; the slice of line 207 begins at the start of the layer and ends before the end of the first one. -/
def columnLayers (width height : Nat) (stretch : Byte × Byte) (colors : RenderColors) (flow : ImageFlow) (data : List Byte) (perLayer : Nat) :
    List Nat → Rs (Except String (List Image))
  | [] => pure (.ok [])
  | n :: ns => do
    let colorNumber ← idx data (n * perLayer)
    let imageData ← slice data (n * perLayer) (perLayer - 1)
    let raster ← columnToBytes imageData width height
    let layer ← imageFromRaster width height stretch (colors.colorFor colorNumber) flow raster false
    match layer with
    | .error m => pure (.error m)
    | .image i => do
      match ← columnLayers width height stretch colors flow data perLayer ns with
      | .error m => pure (.error m)
      | .ok rest => pure (.ok (i :: rest))
    | _ => columnLayers width height stretch colors flow data perLayer ns

/-- graphics.rs:185-229 `image_from_column_bytes_multi_color` -/
def imageFromColumnMulti (width height : Nat) (stretch : Byte × Byte) (numColors : Byte) (colors : RenderColors) (flow : ImageFlow)
    (data : List Byte) : Rs GraphicsCommand := do
  let perLayer := width / 8 * height + 1
  if data.length ≠ (perLayer + 1) * numColors.toNat then
    pure (.error "Not enough data to parse raster image")
  else do
    match ← columnLayers width height stretch colors flow data perLayer (List.range (numColors.toNat + 1)) with
    | .error m => pure (.error m)
    | .ok layers =>
      match ← mergeLayers layers with
      | .ok i => pure (.image i)
      | .error m => pure (.error m)

end Thermal
