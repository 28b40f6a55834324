# Formal model of zachzurn/thermal — design

The first version (plan per property) was written before the proofs; this file is kept current as the model grows.

## 1. Approach

The code is read as text and transcribed, function by function, into total computable Lean 4 functions. `&mut self` becomes
state passing, `Option`/`Result` stay data, a panic is the explicit `Except.error` value of the monad `Rs := Except Panic`.
`u8` is `UInt8`; `u16`/`u32`/`usize`/`i32` are `Nat`/`Int` with *checked* operations that panic where the debug profile
panics (overflow, underflow, division by zero, slice or index out of bounds, `unwrap` on `None`). When the model returns
`ok`, no overflow happened, so the release build computes the same value.

| directory | contents |
|---|---|
| `Verif/Rust.lean` | the monad and the checked operations |
| `Verif/Model/*` | the model; every definition cites the file and lines of /repo it models |
| `Verif/Spec/*` | small specifications, written from the English statement, that do not call the model's helpers |
| `Verif/Proofs/*` | lemmas: invariants, simulation, loop lemmas |
| `Verif/Props/*` | the property theorems (`Cxx_name`), each followed by a concrete case that meets its hypotheses |

A property that the code does not have is kept in full in `properties.jsonl`; its claim is `partial`, with a theorem
`Cxx_…_partial` for the part that holds and a theorem that refutes the rest with a concrete input (`…_false`, `…_wrong`,
`…_exceptions`, `…_panics`, `…_misplaced`, `…_grows`, `…_deviations`).

## 2. Trusted base

* Lean's kernel (4.33.0). No `axiom` is declared; theorems depend at most on `propext`, `Classical.choice` and `Quot.sound`
  (checked for every theorem by `vcheck`). No compiled evaluation is used; finite tables are evaluated by the kernel
  (`decide +kernel`).
* The transcription of the Rust sources into `Verif/Model`. Tables were transcribed by scripts in `tools/` (`gen_*.py`,
  `template.py`). As a check, not as proof, the model was compiled and run on the repository's sample inputs: its
  web pages are the golden ones byte for byte and its images dot for dot, up to glyphs (`conformance/README.md`).
* The correspondence between the words of a property and its theorem.

### What is modelled

| source | model |
|---|---|
| thermal_parser/src/util.rs, constants.rs | Model/Util |
| parser.rs, command.rs, subcommands/mod.rs, every `push`/`get_subcommand`/`get_command_bytes` | Model/Command, Model/Parser |
| command_sets/esc_pos.rs, all `new()` of commands/ and subcommands/ | Model/CommandSet |
| `get_text`, `get_graphics`, `apply_context`, `get_device_command` of every handler | Model/Apply |
| context.rs | Model/Context |
| text.rs | Model/Text |
| graphics.rs | Model/Color, Model/F32 (its arithmetic), Model/Graphics |
| decoder/* (39 code pages, 18 languages) | Model/Codepages, Model/Decoder |
| utils/barcodes/upce.rs | Model/Upce |
| thermal_file.rs | Model/Str, Model/ThermalFile |
| thermal_renderer/src/renderer.rs | Model/Renderer |
| image_renderer/mod.rs, thermal_image.rs | Model/ImageRenderer, Model/Canvas |
| html_renderer/mod.rs, thermal_html.rs, resources/templates/thermal.html | Model/Html, Model/HtmlTemplate |

### What is not modelled, and what is assumed about it

* `barcoders` and `qr_code` (third-party encoders): `Ext`, a parameter of every theorem; it is an arbitrary function, so the
  theorems hold whatever the encoders return. (Encoders that panic are outside the model.)
* `fontdue` (glyph bitmaps): `Glyphs`, an arbitrary parameter.
* `png`, `base64`: `Png`, an arbitrary function to text; rejected inputs (zero width or height) are modelled as panics.
* `f32` arithmetic is modelled bit by bit (Model/F32: finite numbers that are not negative, as multiples of 2^-149) and used as the
  code uses it: blending, multiplying, baselines, strike-through lines, squeezed characters, `points_to_pixels`, PDF417 levels.
  `C87_arithmetic` proves that its rounding is the one IEEE 754 defines (to nearest, ties to even); that the compiler's `f32` is
  IEEE 754 is trusted.  `expand_to_width` halves with integers (`C87_half`), the constants of the paper are written as numbers
  (`C87_paper`), `stretch_width`/`stretch_height` hold whole numbers and are `Nat`.  The font sizes and metrics that go to and come
  from `fontdue` are part of `Glyphs`.
* Trait objects become inductive types (`Handler`), and an output renderer becomes a structure of functions that *read* the
  context: the trait hands out `&mut Context`, but neither renderer of the crate assigns through it.
* `put_pixels` compares the pixel count with `width*height` without truncation to u32 (C47 states the bound it needs).
* Log output: `log_debug*` and `println!` only print.  `Handler::debug`, which is called for every command even if nothing is logged, is modelled
  in Model/Log (C95); the escaping that `{:?}` does in texts is a parameter.  The other lines (`Render Text ...`, `Render Image`) are not modelled.
  Outlines of the `DebugProfile` are modelled (C89).
* Unused code: `parse_binary` (returns nothing), `font_size_pixels`, `line_height_pixels`, `Context::get_height`; `thermal_file::parse_file`'s reading of the file system, the command line
  tools, the test suites.

## 3. Properties: what is modelled and how it is proved

