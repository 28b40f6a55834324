C01 | induction over the input bytes on the parser state; shape of the returned list
C02 | every field of the parser that survives a parse is reset; equality of results
C03 | simulation of the parse of xs by the parse of xs ++ ys; prefix relation
C04 | potential function over the parser state
C05 | kernel evaluation over the table plus a lookup lemma; C05_opcode_selects lifts it to any parser state where a command may start
C06 | invariant of `push` for fixed-arity commands
C07 | subsequence invariant (bytes emitted ++ bytes pending is a subsequence of the bytes read)
C08 | items are an inductive specification (Spec/Stream); induction over the items with an automaton of the open command. False for two kinds of items (finding 1, 4): refuted, and C08_stream says exactly what is returned instead
C09 | payload lemma for each length-prefixed handler
C10 | invariant of the sub-command state: lengths are at least two; converse by construction
C11 | induction over the text bytes
C12 | exact accounting (Spec/Account): the input is an interleaving of the output and named losses
C13 | routing tables Spec/SubCommands against the model's; two 2D functions are registered wrongly (finding 22)
C14 | arithmetic
C15 | all 256 bytes by kernel evaluation
C16 | every slice offset is a character boundary: invariant of the tokeniser over the line
C17 | induction over the text, quoting function in the specification
C18 | tokeniser against a word-splitting specification
C19 | printing commands and tokenising again, over the tokeniser lemmas; findings 7, 8
C20 | loop invariant of the unpacking loops
C21 | column layout, rotation and flip composed pointwise
C22 | loop invariant of `scale_pixels`
C23 | length lemmas for all decoders; column images with too little data panic (finding 10)
C24 | loop invariant of `merge_image_layers`
C25 | abstraction of the stored vectors to a map, for histories of commands
C26 | history of store/print commands
C27 | loop invariants of `break_into_words`; uniqueness of the splitting
C28 | loop invariant of `break_apart`
C29–C31 | `process_text` as a loop over words with a layout invariant (Proofs/Layout); the calls are recorded
C32 | case analysis
C33 | equality of settings; history theorem for command sequences
C34 | invariant over command sequences
C35 | invariant over command sequences; divisors are positive
C36 | a table of what each command may write (Spec/Settings) against the model; finding 22
C37, C38, C39 | page geometry; rotations composed; the reading direction after `rotate`
C40–C48 | canvas as a list of pixels with a width; pointwise specifications (Spec/Canvas, `Shows`); every operation keeps the pixel count; findings 15, 34
C49, C50, C56 | what one command does to the outputs, the span buffer and the errors; induction over the stream
C51–C53 | the rectangles and images handed to the output renderer
C54 | pen y over commands
C55, C73 | the image renderer as output renderer: invariant of both canvases over all jobs
C57–C59 | tables evaluated by the kernel, lifted to texts by induction
C60–C62, C67 | digit arithmetic; UPC-E symbol against its reading specification; finding 17
C63 | blocks of the document under block flow (Spec.tops)
C64 | smallest corner and extent of the rectangles
C65 | false as stated (C65_panics); an invariant of the context and the waiting text (Calm, CalmSpan) that bounds all positions, through every command with parameters in range (Tame); the pens move down at most `reach` dots per command (a 2D code at most its 177 rows when there is no page mode: code2dLoop_rows); for the image renderer an invariant of its canvases (sizes below 2^32) and a renderer that guards the calls, so that tame streams are shown to make calls within its limits only; the same for the HTML renderer, where a page must have got a size before it is printed
C66 | planes and colours; finding 9
C68 | simulation between any output renderer and the recorder: the renderer only sees calls; and back: a recording that can be played is what the renderer does
C69 | line offset and heights of the recorded lines
C70 | an abstract style machine written from the command reference (Spec/Style) simulated by the context; findings 35–40
C71 | the recorded characters with their looks equal the printed characters of the style machine
C72 | areas in all four directions; finding 33
C74 | the document around the article is fixed; tags taken away, the article reads as the recorded text; finding 19
C75 | the style sheet in the document's head is read by a small CSS reader (Spec/Css) and evaluated once by the kernel; the cascade depends only on the classes its rules mention; findings 45, 47
C76 | an invariant of the context (Outfit) and of all spans waiting or handed over (Dressed), through every command
C77 | every canvas operation against an operation on an unbounded sheet (Spec/Picture); the sheet follows the recorded calls; glyph shapes are a parameter
C78 | a reference typesetter on words and numbers (Spec/Typeset); simulation of the layout loop, then of every command; findings 11, 49, 50, 51
C79 | documented symbologies as a separate function (Spec/Barcode, encoders a parameter, UPC-E computed); the handler against it for all data; findings 41, 52, 53
C80 | a fold over the meanings of the commands (Spec/Qr), the encoder a parameter; every other command leaves the four QR settings alone (Touch); printing by C52; findings 58-62
C81 | a reference printer (Spec/Printer: desk, QR settings, memories, print buffer, page setup, acts on paper and pages); simulation item by item, built on C08, C20-C26, C51-C53, C78, C79, C80
C82 | the image renderer's canvases against unbounded sheets and pages of any size (Spec/Medium, Spec/Sheets); simulation call by call, a call does what its acts do (Proofs/Paint); findings 33, 63, 64
C83 | C08, C81 and C82 joined
C84 | the handlers of ESC $, GS $, GS \ and ESC W in page mode, evaluated for every context; differences from the reference printer by evaluation of streams; findings 66-70
C85 | printable names of all commands (finite), printable constants, strings and numbers for every byte (256 cases), then by the shape of the source; text commands are the exception (negative theorem)
C86 | C08, C81 and the rows of the HTML renderer (Spec/Web); simulation call by call with the page canvas of C82 and the CSS of C75; findings 42-47, 71, 72
C87 | f32 as multiples of 2^-149 (Model/F32), rounding against IEEE 754 (Spec/F32); error bounds in the rationals (Proofs/F32, F32Color, F32Places); multiplying near ties checked by the kernel for all divisors of the products that are near a tie; finding 73
C88 | the calls of the jobs recorded from the context each job starts with, C82 for a used renderer (invariant between jobs); after ESC @ the context is that of a new renderer, so the calls and hence the images are the same; an image is determined by its sheet; web pages: C86 for a used renderer; negative theorems by evaluation; finding 75
C89 | simulation of the two runs call by call (same calls by C68): canvases of the same width whose lengths are related; HTML: same rows, page canvases related; negative theorems by evaluation; finding 76
C90 | errors of every command by cases of its kind; induction over the items of a job along C81 with a count of the missing symbols; messages of the canvases are prefixes of the later ones (every canvas operation), replayed calls by C68; negative theorems by evaluation; findings 77, 78
C91 | the function modelled in Model/ColumnLayers; the second layer is cut with an end before its start, the loop always has one layer too many; finding 79
C92 | a table of opcodes and parameter counts written from the protocol (Spec/Protocol), compared with the command set (finite, by evaluation), then C08 for the item between any others; findings 1, 37, 80
C93 | the non-drawing calls of the recorder as a function of opcodes and data (Spec/Told); each command by its kind, the table row by row, induction over the stream with the page mode of C49; any renderer by C68; findings 81, 82
C94 | tables written from the published mappings (Spec/Characters) against the model's tables, byte by byte for the finitely many tables (kernel evaluation), texts of every length by C59 and induction; findings 83, 84, 85
C95 | `debug` of all handlers modelled (Model/Log), lines by opcode (Spec/Log); invariant that the decoder is the one of the selected tables along every history; the table of commands row by row; induction over the commands; hexadecimal is injective; finding 86
C96 | the lines as items of the reference printer (C83); its typesetter on words that fit, its ink on cells that do not overlap, by induction over words, characters and lines; totality by C65_image_text; the margins by C73
C97 | `from_utf8_lossy` (Model/Str) against a relation by the Unicode standard (Spec/Utf8): decoding is sound and complete for the encoding of characters, beginnings of characters byte by byte; induction over the bytes; the relation determines the text
C98 | C86 for the acts of C96: documents without boxes and symbols have one row for each line, whose places and spans are computed by induction over the lines and words; totality by C65_html_text
