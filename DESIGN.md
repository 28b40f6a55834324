# Formal model of zachzurn/thermal — design

The first version (plan per property) was written before the proofs; this file is kept current as the model grows.

## 1. Approach

The code is read as text and transcribed, function by function, into total computable Lean 4 functions. `&mut self` becomes
state passing, `Option`/`Result` stay data, a panic is the explicit `Except.error` value of the monad `Rs := Except Panic`.
`u8` is `UInt8`; `u16`/`u32`/`usize`/`i32` are `Nat`/`Int` with *checked* operations that panic where the debug profile
panics (overflow, underflow, division by zero, slice or index out of bounds, `unwrap` on `None`). When the model returns
`ok`, no overflow happened, so the release build computes the same value.

| directory | contents |
|---|---|
| `Verif/Rust.lean` | the monad and the checked operations |
| `Verif/Model/*` | the model; every definition cites the file and lines of /repo it models |
| `Verif/Spec/*` | small specifications, written from the English statement, that do not call the model's helpers |
| `Verif/Proofs/*` | lemmas: invariants, simulation, loop lemmas |
| `Verif/Props/*` | the property theorems (`Cxx_name`), each followed by a concrete case that meets its hypotheses |

A property that the code does not have is kept in full in `properties.jsonl`; its claim is `partial`, with a theorem
`Cxx_…_partial` for the part that holds and a theorem that refutes the rest with a concrete input (`…_false`, `…_wrong`,
`…_exceptions`, `…_panics`, `…_misplaced`, `…_grows`, `…_deviations`).

## 2. Trusted base

* Lean's kernel (4.33.0). No `axiom` is declared; theorems depend at most on `propext`, `Classical.choice` and `Quot.sound`
  (checked for every theorem by `vcheck`). No compiled evaluation is used; finite tables are evaluated by the kernel
  (`decide +kernel`).
* The transcription of the Rust sources into `Verif/Model`. Tables were transcribed by scripts in `tools/` (`gen_*.py`,
  `template.py`). As a check, not as proof, the model was compiled and run on the repository's sample inputs: its
  web pages are the golden ones byte for byte and its images dot for dot, up to glyphs (`conformance/README.md`).
* The correspondence between the words of a property and its theorem.

### What is modelled

| source | model |
|---|---|
| thermal_parser/src/util.rs, constants.rs | Model/Util |
| parser.rs, command.rs, subcommands/mod.rs, every `push`/`get_subcommand`/`get_command_bytes` | Model/Command, Model/Parser |
| command_sets/esc_pos.rs, all `new()` of commands/ and subcommands/ | Model/CommandSet |
| `get_text`, `get_graphics`, `apply_context`, `get_device_command` of every handler | Model/Apply |
| context.rs | Model/Context |
| text.rs | Model/Text |
| graphics.rs | Model/Color, Model/F32 (its arithmetic), Model/Graphics |
| decoder/* (39 code pages, 18 languages) | Model/Codepages, Model/Decoder |
| utils/barcodes/upce.rs | Model/Upce |
| thermal_file.rs | Model/Str, Model/ThermalFile |
| thermal_renderer/src/renderer.rs | Model/Renderer |
| image_renderer/mod.rs, thermal_image.rs | Model/ImageRenderer, Model/Canvas |
| html_renderer/mod.rs, thermal_html.rs, resources/templates/thermal.html | Model/Html, Model/HtmlTemplate |

### What is not modelled, and what is assumed about it

* `barcoders` and `qr_code` (third-party encoders): `Ext`, a parameter of every theorem; it is an arbitrary function, so the
  theorems hold whatever the encoders return. (Encoders that panic are outside the model.)
* `fontdue` (glyph bitmaps): `Glyphs`, an arbitrary parameter.
* `png`, `base64`: `Png`, an arbitrary function to text; rejected inputs (zero width or height) are modelled as panics.
* `f32` arithmetic is modelled bit by bit (Model/F32: finite numbers that are not negative, as multiples of 2^-149) and used as the
  code uses it: blending, multiplying, baselines, strike-through lines, squeezed characters, `points_to_pixels`, PDF417 levels.
  `C87_arithmetic` proves that its rounding is the one IEEE 754 defines (to nearest, ties to even); that the compiler's `f32` is
  IEEE 754 is trusted.  `expand_to_width` halves with integers (`C87_half`), the constants of the paper are written as numbers
  (`C87_paper`), `stretch_width`/`stretch_height` hold whole numbers and are `Nat`.  The font sizes and metrics that go to and come
  from `fontdue` are part of `Glyphs`.
* Trait objects become inductive types (`Handler`), and an output renderer becomes a structure of functions that *read* the
  context: the trait hands out `&mut Context`, but neither renderer of the crate assigns through it.
* `put_pixels` compares the pixel count with `width*height` without truncation to u32 (C47 states the bound it needs).
* Log output: `log_debug*` and `println!` only print.  `Handler::debug`, which is called for every command even if nothing is logged, is modelled
  in Model/Log (C95); the escaping that `{:?}` does in texts is a parameter.  The other lines (`Render Text ...`, `Render Image`) are not modelled.
  Outlines of the `DebugProfile` are modelled (C89).
* Unused code: `parse_binary` (returns nothing), `font_size_pixels`, `line_height_pixels`, `Context::get_height`; `thermal_file::parse_file`'s reading of the file system, the command line
  tools, the test suites.

## 3. Properties: what is modelled and how it is proved

| property | model and proof |
|---|---|
| C01 | induction over the input bytes on the parser state; shape of the returned list |
| C02 | every field of the parser that survives a parse is reset; equality of results |
| C03 | simulation of the parse of xs by the parse of xs ++ ys; prefix relation |
| C04 | potential function over the parser state |
| C05 | kernel evaluation over the table plus a lookup lemma; C05_opcode_selects lifts it to any parser state where a command may start |
| C06 | invariant of `push` for fixed-arity commands |
| C07 | subsequence invariant (bytes emitted ++ bytes pending is a subsequence of the bytes read) |
| C08 | items are an inductive specification (Spec/Stream); induction over the items with an automaton of the open command. False for two kinds of items (finding 1, 4): refuted, and C08_stream says exactly what is returned instead |
| C09 | payload lemma for each length-prefixed handler |
| C10 | invariant of the sub-command state: lengths are at least two; converse by construction |
| C11 | induction over the text bytes |
| C12 | exact accounting (Spec/Account): the input is an interleaving of the output and named losses |
| C13 | routing tables Spec/SubCommands against the model's; two 2D functions are registered wrongly (finding 22) |
| C14 | arithmetic |
| C15 | all 256 bytes by kernel evaluation |
| C16 | every slice offset is a character boundary: invariant of the tokeniser over the line |
| C17 | induction over the text, quoting function in the specification |
| C18 | tokeniser against a word-splitting specification |
| C19 | printing commands and tokenising again, over the tokeniser lemmas; findings 7, 8 |
| C20 | loop invariant of the unpacking loops |
| C21 | column layout, rotation and flip composed pointwise |
| C22 | loop invariant of `scale_pixels` |
| C23 | length lemmas for all decoders; column images with too little data panic (finding 10) |
| C24 | loop invariant of `merge_image_layers` |
| C25 | abstraction of the stored vectors to a map, for histories of commands |
| C26 | history of store/print commands |
| C27 | loop invariants of `break_into_words`; uniqueness of the splitting |
| C28 | loop invariant of `break_apart` |
| C29–C31 | `process_text` as a loop over words with a layout invariant (Proofs/Layout); the calls are recorded |
| C32 | case analysis |
| C33 | equality of settings; history theorem for command sequences |
| C34 | invariant over command sequences |
| C35 | invariant over command sequences; divisors are positive |
| C36 | a table of what each command may write (Spec/Settings) against the model; finding 22 |
| C37, C38, C39 | page geometry; rotations composed; the reading direction after `rotate` |
| C40–C48 | canvas as a list of pixels with a width; pointwise specifications (Spec/Canvas, `Shows`); every operation keeps the pixel count; findings 15, 34 |
| C49, C50, C56 | what one command does to the outputs, the span buffer and the errors; induction over the stream |
| C51–C53 | the rectangles and images handed to the output renderer |
| C54 | pen y over commands |
| C55, C73 | the image renderer as output renderer: invariant of both canvases over all jobs |
| C57–C59 | tables evaluated by the kernel, lifted to texts by induction |
| C60–C62, C67 | digit arithmetic; UPC-E symbol against its reading specification; finding 17 |
| C63 | blocks of the document under block flow (Spec.tops) |
| C64 | smallest corner and extent of the rectangles |
| C65 | false as stated (C65_panics); an invariant of the context and the waiting text (Calm, CalmSpan) that bounds all positions, through every command with parameters in range (Tame); the pens move down at most `reach` dots per command (a 2D code at most its 177 rows when there is no page mode: code2dLoop_rows); for the image renderer an invariant of its canvases (sizes below 2^32) and a renderer that guards the calls, so that tame streams are shown to make calls within its limits only; the same for the HTML renderer, where a page must have got a size before it is printed |
| C66 | planes and colours; finding 9 |
| C68 | simulation between any output renderer and the recorder: the renderer only sees calls; and back: a recording that can be played is what the renderer does |
| C69 | line offset and heights of the recorded lines |
| C70 | an abstract style machine written from the command reference (Spec/Style) simulated by the context; findings 35–40 |
| C71 | the recorded characters with their looks equal the printed characters of the style machine |
| C72 | areas in all four directions; finding 33 |
| C74 | the document around the article is fixed; tags taken away, the article reads as the recorded text; finding 19 |
| C75 | the style sheet in the document's head is read by a small CSS reader (Spec/Css) and evaluated once by the kernel; the cascade depends only on the classes its rules mention; findings 45, 47 |
| C76 | an invariant of the context (Outfit) and of all spans waiting or handed over (Dressed), through every command |
| C77 | every canvas operation against an operation on an unbounded sheet (Spec/Picture); the sheet follows the recorded calls; glyph shapes are a parameter |
| C78 | a reference typesetter on words and numbers (Spec/Typeset); simulation of the layout loop, then of every command; findings 11, 49, 50, 51 |
| C79 | documented symbologies as a separate function (Spec/Barcode, encoders a parameter, UPC-E computed); the handler against it for all data; findings 41, 52, 53 |
| C80 | a fold over the meanings of the commands (Spec/Qr), the encoder a parameter; every other command leaves the four QR settings alone (Touch); printing by C52; findings 58-62 |
| C81 | a reference printer (Spec/Printer: desk, QR settings, memories, print buffer, page setup, acts on paper and pages); simulation item by item, built on C08, C20-C26, C51-C53, C78, C79, C80 |
| C82 | the image renderer's canvases against unbounded sheets and pages of any size (Spec/Medium, Spec/Sheets); simulation call by call, a call does what its acts do (Proofs/Paint); findings 33, 63, 64 |
| C83 | C08, C81 and C82 joined |
| C84 | the handlers of ESC $, GS $, GS \ and ESC W in page mode, evaluated for every context; differences from the reference printer by evaluation of streams; findings 66-70 |
| C85 | printable names of all commands (finite), printable constants, strings and numbers for every byte (256 cases), then by the shape of the source; text commands are the exception (negative theorem) |
| C86 | C08, C81 and the rows of the HTML renderer (Spec/Web); simulation call by call with the page canvas of C82 and the CSS of C75; findings 42-47, 71, 72 |
| C87 | f32 as multiples of 2^-149 (Model/F32), rounding against IEEE 754 (Spec/F32); error bounds in the rationals (Proofs/F32, F32Color, F32Places); multiplying near ties checked by the kernel for all divisors of the products that are near a tie; finding 73 |
| C88 | the calls of the jobs recorded from the context each job starts with, C82 for a used renderer (invariant between jobs); after ESC @ the context is that of a new renderer, so the calls and hence the images are the same; an image is determined by its sheet; web pages: C86 for a used renderer; negative theorems by evaluation; finding 75 |
| C89 | simulation of the two runs call by call (same calls by C68): canvases of the same width whose lengths are related; HTML: same rows, page canvases related; negative theorems by evaluation; finding 76 |
| C90 | errors of every command by cases of its kind; induction over the items of a job along C81 with a count of the missing symbols; messages of the canvases are prefixes of the later ones (every canvas operation), replayed calls by C68; negative theorems by evaluation; findings 77, 78 |
| C91 | the function modelled in Model/ColumnLayers; the second layer is cut with an end before its start, the loop always has one layer too many; finding 79 |
| C92 | a table of opcodes and parameter counts written from the protocol (Spec/Protocol), compared with the command set (finite, by evaluation), then C08 for the item between any others; findings 1, 37, 80 |
| C93 | the non-drawing calls of the recorder as a function of opcodes and data (Spec/Told); each command by its kind, the table row by row, induction over the stream with the page mode of C49; any renderer by C68; findings 81, 82 |
| C94 | tables written from the published mappings (Spec/Characters) against the model's tables, byte by byte for the finitely many tables (kernel evaluation), texts of every length by C59 and induction; findings 83, 84, 85 |
| C95 | `debug` of all handlers modelled (Model/Log), lines by opcode (Spec/Log); invariant that the decoder is the one of the selected tables along every history; the table of commands row by row; induction over the commands; hexadecimal is injective; finding 86 |
| C96 | the lines as items of the reference printer (C83); its typesetter on words that fit, its ink on cells that do not overlap, by induction over words, characters and lines; totality by C65_image_text; the margins by C73 |
| C97 | `from_utf8_lossy` (Model/Str) against a relation by the Unicode standard (Spec/Utf8): decoding is sound and complete for the encoding of characters, beginnings of characters byte by byte; induction over the bytes; the relation determines the text |
| C98 | C86 for the acts of C96: documents without boxes and symbols have one row for each line, whose places and spans are computed by induction over the lines and words; totality by C65_html_text |

## 4. Findings

Where the code does not do what a user would expect; found while stating and proving the properties. C-numbers name the theorem that shows it, where there is one.

1. CAN followed by anything but `@` drops the CAN; CAN ESC makes the ESC text; CAN LF puts the LF into text data (C12).
2. An opcode cut off at the end of the input is dropped (C12).
3. An empty Unknown command is emitted when a stream starts with text (C11).
4. A sub-command cut off at the end of the input is emitted with empty data or dropped (C12, C08_full_claim_false).
5. A NUL-terminated barcode keeps the terminator in its data when it ends the input (C08).
6. A sub-command that declares a length below 2 panics with an overflow (C10_short_length_panics).
7. `cmd_to_thermal` does not escape quotes and backslashes, loses HT/CR commands, and an empty Unknown re-parses to garbage (C19_full_claim_false). Quoted text with a line break is split (C17_line_break_differs).
8. `parse_tokens` drops unquoted characters that stand directly before a quote.
9. `RGBA::with_alpha` uses green for blue (C66_colour_wrong).
10. Column images panic on truncated data (C23_column_short_panics); `store_buffer_graphics` takes `data[8..]` of 4–7 bytes; `define_*_column` unwraps fields of fewer than 8 bytes; multi-colour bits need a width divisible by 8.
11. `process_text`: `(max_width/cw).max(cw)` overflows the width for wide characters (C31_needs_width); right justification underflows for a line wider than the paper.
12. GS P with a value above the resolution makes a motion unit 0, and a later position divides by it; 360/1 is truncated to a u8 (104).
13. ESC @ resets the render area's y to 60, drops stored NV graphics and does not leave page mode.
14. ESC e n casts a negative feed to u32: overflow panic.
15. `put_pixels` tests y + width instead of y + height: a locked page grows (C44_grows).
16. FF in standard mode ends the document; the paper canvas then has width 0, so what is printed afterwards is lost; errors are reported again (C49).
17. UPC-E compression uses `&&` for `||`: numbers without a UPC-E form are printed as another number (C67_suppression_wrong); the check digit is not validated.
18. EAN-13 slices `&data[..12]` off a character boundary for non-ASCII data.
19. HTML text is not escaped and `{{receipt-style}}` in it is substituted.
20. `process_code_2d`: `continue` without advancing, y is not advanced past the last row, a width of 1 never starts a new row (C52_needs_two).
21. `select_standard_mode` has kind Context, so its EndPageMode device command is never issued.
22. `composite_set_max_width` writes the GS1 field; `datamatrix_set_width` is registered under (52,67) and hides `composite_set_width` (C36_exceptions, C13_exceptions). Data matrix d1+d2, MaxiCode n-48, PDF417 m-48 overflow; the PDF417 level ladder only reaches 7 or 8.
23. `qr_store` casts the length to i16; raster scaling tests 3|52 for 3|51.
24. Undefined slots of code pages 851, 853 and 857 decode to nothing (C58).
25. A stray ESC swallows the command after it (ESC ESC @).
26. GS ( H always loses its header bytes (C12); `get_nv_remaining_capacity` is registered under 4/52 instead of 3/51.
27. `get_command_bytes` of Unknown reports the list of marker bytes as opcode.
28. width*height overflows u32 for large truncated raster images.
29. NV/download graphics defined in column format are decoded as raster data (C25).
30. Merging layers of different size paints by linear index.
31. `bit_image` 8-dot modes stay column encoded.
32. Widening a page while something is drawn on it centres the drawn content.
33. Page areas in two of the four directions are misplaced (C72_misplaced).
34. Turning an empty canvas loses its width (C41_empty).
35. ESC ! takes underline from bit 6 instead of bit 7 (C70_deviations).
36. ESC G 1, ESC G 0 leaves a single strike-through (C70_deviations).
37. ESC D takes exactly two bytes.
38. GS B compares n with 1 instead of its lowest bit; GS B 0 resets the colour (C70_deviations).
39. GS w 0 and 1 set 2 instead of being ignored (C70_deviations).
40. GS ( N with m=48 ("none") selects colour 1 (C70_deviations).
41. ITF and Codabar barcodes of two characters are rejected.
42. HTML: inline images on one line are stacked (rows at the same y are displaced, C63_tops).
43. HTML: images without pixels panic in the png encoder: a raster image of width or height 0, and a page printed with `ESC L` ... `FF` without `ESC W` (C65_html_panics).
44. HTML: text that continues a line after a flushing command is shown on the next line.
45. HTML CSS: different width and height factors conflict, upside-down is lost when stretched, underline with strike-through shows only the strike-through, double underline is shown as single; padding-right uses paper_area.y.
46. HTML: a 1D or 2D code without any dark module pushes a row at y = 0 that resets the flow position.
47. HTML styles fonts B and C only: fonts D, E and the special fonts are laid out 9 by 17 but shown in the size of font A, and font C is laid out like B but shown at .65em.
48. ESC W with a page area of more than 2^32 dots panics in the image renderer (C65_image_panics); so does a print buffer whose layers merge into an image of that size.
49. GS P inverts the motion unit: ESC $ and the page mode positions are divided by dpi/x where they should be multiplied (C78_unit_inverted).
50. HT at a tab stop, also at the start of a line, does not move (C78_tab_stays). ESC D does not flush the text before it, so it also changes the stops of tabs already sent; ESC D without parameters sets stop 24 to 24.
51. CR prints a character cell: it is laid out and drawn like a letter.
52. GS k with m = 74..79 (GS1-128, GS1 DataBar, CODE128 auto) draws nothing: those kinds are matched against 80..85, which the encoding check never accepts (C79_gs1_missing).
53. CODE128 data: `{{`, `{S`, `{1`..`{4` are passed to the encoder as they are, and the code set selections are removed one letter after the other, so that `{{AB` has no text (C79_deviations).
54. GS f changes the font of a barcode's text but not its character cell, which stays that of the text font.
55. A right-justified or centred line that is split by a command which flushes (GS h, GS w, ... in the middle of a line) has each part justified on its own, the second part from its own start, so it ends outside the paper.
56. Printing NV or download graphics ignores the magnification x, y.
57. ESC * modes 1 and 32 have the wrong proportions: single density and double density dots are printed as in modes 33 and 0.
58. GS ( k 49 80: the parameter m (48) is encoded as the first byte of the data, so every QR code reads `0...` (C80_parameter_encoded, C80_text_not_encoded).
59. GS ( k 49 69 compares n with 1, 2, 3 instead of 49, 50, 51: always level L (C80_level_ignored). The capacity table is that of level L, also for micro QR codes.
60. GS ( k 49 67 after the data were stored has no effect; data that cannot be encoded leave the symbol stored before, which is printed again (C80_deviations).
61. Printing PDF417, MaxiCode, GS1 DataBar, composite, Aztec or DataMatrix symbols prints the QR symbol stored last (C80_deviations).
62. After a 2D code the pen is at the top of its last row of modules: text that follows on the same line overlaps it.
63. After a page printed in a direction turned by 90 degrees (ESC T 1 or 3) the paper advances by the height of the page area as seen in that direction, not by the height of the upright page: what follows overlaps the page or leaves a gap (`ESC L`, `ESC W 0 0 60 100`, `ESC T 1`, "AB" LF FF "C": the page is in rows 108 to 207, the C at row 168).
64. Page mode without ESC W since ESC L prints nothing: the page has 0 by 0 dots until an area is set (`ESC L` "AB" FF). After FF a second page without a new ESC W prints nothing either.
65. The reference dot density for graphics (GS ( L function 49) also changes the thickness of strike-through lines: `points_to_pixels` uses it (Spec.strikeDots).
66. Page mode: ESC $ and GS $ in a turned print direction move along the wrong side of the page: the position is kept as seen in the print direction, but these commands turn it again (C84_what_is_done, C84_deviations).
67. Page mode: HT compares the tab stops, counted from the left edge of the page, with the position and then counts the stop found from the left edge of the print area (C84_tab_misplaced).
68. Page mode: with ESC T 2 and ESC T 3 an area that is not in the middle of the page is misplaced; in turned directions an area beyond the page does not make the page large enough (C84_deviations).
69. ESC W and ESC T in standard mode are not remembered for page mode, but move the position of page mode to the start of the old area (C84_deviations). ESC T with parameters other than 0-3 and 48-51 selects direction 0.
70. ESC L in page mode begins a new page, and what was not printed is lost; ESC L in standard mode goes on at the position of the page before.
71. HTML: after a form feed in standard mode the next document shows all rows of the document before again (C86_shown_again); in the image output the paper is gone instead (finding 16).
72. HTML: bars and QR modules are black whatever the colour of the text (`ESC r`).
73. Text stretched by different factors (for example 3 times as wide and 7 times as high) shows some columns of its glyphs one dot off: `s * (n / m)` in f32 is a little less than the whole number it should be (C87_fitted_off_by_one).
74. HTML: a document that ends in page mode loses the space for what was fed below the last row: the padding is computed from the position on the page (`ESC J 100`, `ESC L`; C86_space_lost). The image output has it.
75. A renderer that is used again goes on where the last job ended: position, styles, stored graphics and page mode stay, although the paper is new (an empty job gives 108 rows, a second one 156: C88_position_stays). `ESC @` helps except after a job that ends in page mode, which `ESC @` does not leave (C88_page_mode_stays). On web pages the space at the top of a later job grows with what was printed before, even after `ESC @` (C88_web_space_stays).
76. Debug profiles: outlining an image or a page without dots panics (`draw_border` computes `height - 1` and `width - 1`): `GS v 0` with no rows (C89_image_panics), a printed page of width or height 0 (C89_page_panics). Without debug profile both are rendered.
77. Printing a stored graphic under a key that is not defined, an empty print buffer, or a 2D symbol other than a QR code prints nothing and reports nothing (C90_silent), while a missing QR code is reported.
78. The messages of the image renderer (`errors` of the two canvases) are never cleared: with a renderer that is used again, or a job with several documents, the errors of a document are returned again with every later one (C90_stay).
79. `image_from_column_bytes_multi_color` (public, not used by the crate) cannot decode anything: it wants one byte more per layer than the documentation says, counts one layer too many (`0..=num_colors`) and cuts `layer_start..bytes_per_layer - 1`, which panics for the second layer (C91_never_a_picture).
80. GS ( G takes four bytes, whatever number of parameters it announces (C92_otherwise).
81. The renderer is never told of ESC p (`DeviceCommand::Pulse` exists, nothing makes it) nor of GS I and the other requests (`Transmit`); ESC S leaves page mode without `EndPageMode`, because its kind is `Context` and device commands of that kind are not asked for (C93_deviations).
82. GS V 65/66 n (feed, then cut) announces the cut first and the feed after it (C93_deviations).
83. International character sets: 59 characters in 12 sets are not those of the documentation; for example in the German set the bytes from 60h on are shifted by one place, so that `süß` ends in the wrong letters (C94_national_partial is exact about them, C94_deviations).
84. PC850 has box corners for the cent and yen signs (BDh, BEh) and a hyphen for the soft hyphen; eight characters of PC865 are those of PC850 (C94_pages_partial).
85. Code pages without a table, such as WPC1252 (16) and PC858 (19), are read as PC437 without any message; the euro sign comes out as `Ç` or a box corner (C94_missing).
86. The log is written before a command is carried out, so `Set Code Table to 0. Default (Codepage 437)` is the line of ESC t 2; the line of GS ( H is empty (its handler asks for a sub-command and has none); carriage returns are called `Line Feed`; the functions that store the data of MaxiCode, GS1 DataBar, composite, Aztec and DataMatrix symbols are all called `PDF417 Store the Code2D data`; with code page 255 (UTF-8) the log tells code page 437 (C95_deviations).
