import Verif.Model.Html
import Verif.Model.ThermalFile
import Verif.Model.ImageRenderer
import Verif.Spec.Trace
import Std.Data.HashMap
open Thermal

def hexd (n : UInt8) : List Char := [Nat.digitChar (n.toNat / 16), Nat.digitChar (n.toNat % 16)]

/-- A table of encoded symbols: kind, data, modules. -/
def ext (table : List (String × String × String)) : Ext :=
  ⟨fun k d => dbgTrace s!"REQ {k.name}|{String.ofList d}" fun _ => match table.find? (fun t => t.1 == k.name && t.2.1 == String.ofList d) with
      | some t => .ok (t.2.2.toList.map fun c => if c == '1' then 1 else 0)
      | none => .error "none".toList,
   fun d _ _ => dbgTrace s!"REQ QR|{String.ofList (d.flatMap hexd)}" fun _ => match table.find? (fun t => t.1 == "QR" && t.2.1 == String.ofList (d.flatMap hexd)) with
      | some t => let bits := t.2.2.toList.map (· == '1'); some (bits, Nat.sqrt bits.length)
      | none => none⟩
def png (w h : Nat) (b : List Byte) : Str := s!"PNG{w}x{h}:".toList ++ b.flatMap hexd


def hexv (c : Char) : Nat := if c.isDigit then c.toNat - 48 else c.toNat - 87
partial def unhex : List Char → List Byte
  | a :: b :: r => UInt8.ofNat (hexv a * 16 + hexv b) :: unhex r
  | _ => []

def fontNo : Font → Nat
  | .A => 0 | .B => 1 | .C => 2 | _ => 3

def key (b i : Bool) (f : Font) (s : Nat) (c : Char) : String := s!"{b} {i} {fontNo f} {s} {c.toNat}"

def spanChars (xo mh : Nat) (t : TextSpan) : List String :=
  match t.dimensions with
  | none => []
  | some d =>
    let off := match Canvas.spanOffset t.font mh t.characterHeight with | .ok o => o | .error _ => 0
    let scale := max (t.characterWidth / t.baseCharacterWidth) (t.characterHeight / t.baseCharacterHeight)
    let same := t.characterWidth == t.baseCharacterWidth * scale && t.characterHeight == t.baseCharacterHeight * scale
    let plain := t.underline == 0 && t.strikethrough == 0 && !t.upsideDown && t.textColor == ⟨0, 0, 0, 255⟩ && (t.backgroundColor == ⟨255, 255, 255, 255⟩ || t.backgroundColor.a == 0) && same
    (t.text.zipIdx).map fun (c, i) => s!"CHAR {d.x + xo + i * t.characterWidth} {d.y + off} {t.characterWidth} {t.characterHeight} {plain} {key t.bold t.italic t.font scale c}"

def main (args : List String) : IO UInt32 := do
  let mode := args[0]!
  let f := args[1]!
  let raw ← IO.FS.readBinFile f
  let bytes ← if f.endsWith ".thermal" then
      match parseStr (String.fromUTF8! raw).toList with
      | .ok b => pure b
      | .error _ => IO.eprintln "parse panic"; return 2
    else pure raw.toList
  IO.eprintln s!"{bytes.length} bytes"
  let table ← match args.drop 3 with
    | f :: _ => do pure ((← IO.FS.lines f).toList.filterMap fun l => match l.splitOn "|" with | [a, b, c] => some (a, b, c) | _ => none)
    | [] => pure []
  let glyphMap : Std.HashMap String Canvas.Glyph ← match args.drop 4 with
    | "solid" :: _ => pure {}
    | f :: _ => do pure ((← IO.FS.lines f).toList.foldl (fun m l => match l.splitOn "|" with
        | [k, w, c] => m.insert k ⟨false, w.toNat!, unhex c.toList, 0, 0⟩
        | _ => m) {})
    | [] => pure {}
  let solid := args[4]? == some "solid"
  let gs : Canvas.Glyphs := ⟨fun b i f s c => if solid then
      let (w, h) := match f with | .A => (12, 24) | .B => (9, 17) | _ => (12, 24)
      ⟨false, w * s, List.replicate (w * s * h * s) 255, 0, 0⟩ else match glyphMap[key b i f s c]? with
    | some g => g
    | none => ⟨c.toNat < 32 || (c.toNat ≥ 127 && c.toNat < 160), 0, [], 0, 0⟩⟩
  if mode == "calls" then
    for a in List.range 256 do
      let v := RGBA.blendWithAlpha ⟨255, 255, 255, 255⟩ ⟨0, 0, 0, 255⟩ (UInt8.ofNat a)
      IO.println s!"COV {a} {v.r}"
    match Renderer.render recorder (ext table) (Renderer.new []) bytes with
    | .ok (_, _, t) =>
      for x in t.child do
        match x.2 with
        | .text l o m _ => if !x.1.pageMode.enabled then for t in l do for s in spanChars o m t do IO.println s
        | .endRender => IO.println "END"
        | _ => pure ()
      return 0
    | .error _ => IO.eprintln "panic"; return 3
  if mode == "image" then
    match Renderer.render (imageRenderer gs) (ext table) (Renderer.new (ImageRenderer.new {})) bytes with
    | .ok (outs, errs, _) =>
      IO.eprintln s!"{outs.length} outputs, {errs.length} errors: {(errs.map (fun e => String.ofList e.description))}"
      match outs with
      | o :: _ => do
        IO.eprintln s!"{o.width} x {o.height}"
        IO.FS.writeBinFile args[2]! (ByteArray.mk o.bytes.toArray)
      | [] => pure ()
      return 0
    | .error _ => IO.eprintln "panic"; return 3
  match Renderer.render (htmlRenderer gs png) (ext table) (Renderer.new (HtmlRenderer.new {})) bytes with
  | .ok (outs, errs, _) =>
    IO.eprintln s!"{outs.length} outputs, {errs.length} errors: {(errs.map (fun e => String.ofList e.description))}"
    match outs with
    | o :: _ => IO.FS.writeFile args[2]! (String.ofList o)
    | [] => pure ()
    return 0
  | .error _ => IO.eprintln "panic"; return 3
