{"id": "C01", "title": "Every parse is framed by Begin Print / End Print", "statement": "Parser::parse_bytes, whenever it returns, returns a list whose first command is Begin Print and whose last command is End Print, and these two occur nowhere else in the list.", "quantifier": "every byte string, every parser state left by earlier calls", "why_tests_cant": "Input space is all byte strings; tests sample a handful of receipts.", "anchors": ["thermal_parser/src/parser.rs: Parser::parse_bytes, emit_command", "thermal_parser/src/commands/begin_print.rs", "thermal_parser/src/commands/end_print.rs"]}
{"id": "C02", "title": "A parser can be reused", "statement": "Calling parse_bytes on a parser that has already parsed any number of other inputs returns exactly what a freshly created parser returns for the same bytes.", "quantifier": "every finite history of earlier inputs, every next input", "why_tests_cant": "Quantifies over histories of calls; leaked state shows only after particular earlier inputs (open opcode, open payload).", "anchors": ["thermal_parser/src/parser.rs: Parser::parse_bytes"]}
{"id": "C03", "title": "Parsing is streaming: later bytes never rewrite earlier commands", "statement": "If parse_bytes(xs) returns and parse_bytes(xs ++ ys) returns, then every command of the first result except the one still open at the end (and End Print) appears, in the same position and with the same data, in the second result.", "quantifier": "every byte string and every way to extend it", "why_tests_cant": "Universally quantified over two unbounded strings; the bug classes are look-ahead dependent.", "anchors": ["thermal_parser/src/parser.rs: Parser::parse, parse_bytes"]}
{"id": "C04", "title": "The number of commands is linear in the input", "statement": "parse_bytes returns at most |bytes| + 3 commands.", "quantifier": "every byte string", "why_tests_cant": "A bound over all inputs cannot be sampled.", "anchors": ["thermal_parser/src/parser.rs: Parser::parse"]}
{"id": "C05", "title": "The opcode table is unambiguous", "statement": "No opcode of the ESC/POS command set is a prefix of, or equal to, another, no opcode is empty, and at every parser position where no command is open or the open command is complete, the bytes of an opcode select exactly that command.", "quantifier": "every pair of commands in the set; every parser state at an item boundary", "why_tests_cant": "Tests exercise single opcodes, not all pairs in all parser states.", "anchors": ["thermal_parser/src/command_sets/esc_pos.rs: new", "thermal_parser/src/parser.rs: Parser::parse"]}
{"id": "C06", "title": "Fixed-size commands carry exactly their parameter bytes", "statement": "Every command with a fixed parameter count (0,1,2,3,4,8) returned by parse_bytes carries exactly that many data bytes, except that the command just before End Print may carry fewer (the input ended).", "quantifier": "every byte string, every command in the result", "why_tests_cant": "Must hold after any garbage prefix and any interleaving of commands.", "anchors": ["thermal_parser/src/command.rs: Command::push", "thermal_parser/src/parser.rs: Parser::parse"]}
{"id": "C07", "title": "The parser never invents or reorders bytes", "statement": "Concatenating, for every returned command, its opcode and data bytes gives a subsequence of the input bytes.", "quantifier": "every byte string on which parse_bytes returns", "why_tests_cant": "Duplication or reordering depends on arbitrary interleavings of partial opcodes, payloads and garbage.", "anchors": ["thermal_parser/src/parser.rs: Parser::parse, emit_command", "thermal_parser/src/subcommands/mod.rs"]}
{"id": "C08", "title": "Well-formed streams are split exactly into their items", "statement": "For every sequence of well-formed items (text runs, fixed-size commands, barcodes, bit images, raster images, character effects, cuts and length-prefixed sub-commands), parse_bytes of the concatenated encodings returns precisely these items, in order, each with its own opcode and payload; concatenating the returned bytes restores the input.", "quantifier": "every finite sequence of well-formed items with any payload bytes", "why_tests_cant": "Unbounded sequences and payloads; framing errors appear only for particular neighbours.", "anchors": ["thermal_parser/src/parser.rs", "thermal_parser/src/command.rs: Command::push", "thermal_parser/src/commands/barcode.rs", "thermal_parser/src/commands/bit_image.rs", "thermal_parser/src/commands/raster_bit_image.rs", "thermal_parser/src/commands/feed_and_cut.rs", "thermal_parser/src/commands/set_character_effects.rs", "thermal_parser/src/subcommands/mod.rs"]}
{"id": "C09", "title": "Payload bytes are opaque", "statement": "Inside a length-prefixed payload (barcode function B, bit image, raster image, sub-command) any byte values, including complete opcodes, are taken as data and never start another command.", "quantifier": "every payload content, every following bytes", "why_tests_cant": "Needs all payload contents against all opcodes.", "anchors": ["thermal_parser/src/commands/barcode.rs: push", "thermal_parser/src/commands/bit_image.rs: push", "thermal_parser/src/commands/raster_bit_image.rs: push", "thermal_parser/src/subcommands/mod.rs: SubCommandHandler::push"]}
{"id": "C10", "title": "parse_bytes panics only on a declared sub-command length below two", "statement": "parse_bytes returns normally on every byte string unless the bytes contain a sub-command header (GS ( k, GS ( L, GS ( H or GS 8 L) whose declared length is less than 2, in which case the arithmetic overflow check panics.", "quantifier": "every byte string", "why_tests_cant": "Totality over all inputs; fuzzing samples.", "anchors": ["thermal_parser/src/subcommands/mod.rs: SubCommandHandler::parse_meta", "thermal_parser/src/parser.rs"]}
{"id": "C11", "title": "Plain text survives parsing verbatim", "statement": "A stream of bytes none of which starts an opcode (a CAN byte counts as text unless followed by '@') is returned as a single Text command holding exactly those bytes, preceded by an empty Unknown marker, whatever command follows it.", "quantifier": "every string over the non-opcode-starting bytes", "why_tests_cant": "All strings.", "anchors": ["thermal_parser/src/parser.rs", "thermal_parser/src/commands/text.rs"]}
{"id": "C12", "title": "Every input byte is accounted for", "statement": "The only bytes missing from the concatenated output are: a CAN byte not followed by '@', an opcode left incomplete at the end of input, the header bytes of GS ( H, and the sub-commands that are unrecognised or cut off by the end of input; all other bytes appear in the output, in order.", "quantifier": "every byte string", "why_tests_cant": "Loss occurs only for particular byte neighbourhoods.", "anchors": ["thermal_parser/src/parser.rs: Parser::parse"]}
{"id": "C13", "title": "Sub-commands are routed by their function bytes", "statement": "GS ( L / GS 8 L select the graphics function named by fn and GS ( k selects the 2D-code function named by (cn, fn); the selected sub-command receives exactly the declared payload; an unknown function yields no command but its payload is still consumed.", "quantifier": "every header, every payload, every following bytes", "why_tests_cant": "65536 (cn, fn) pairs times all payloads.", "anchors": ["thermal_parser/src/subcommands/mod.rs: SubCommandHandler", "thermal_parser/src/subcommands/gs_graphics/mod.rs", "thermal_parser/src/subcommands/gs_code2d/mod.rs"]}
{"id": "C14", "title": "Little-endian integers decode exactly", "statement": "parse_u16/parse_u32 at an index return the little-endian value of the bytes there (missing bytes read as zero), for every value; encoding then decoding is the identity.", "quantifier": "every byte vector, every index, every 16/32-bit value", "why_tests_cant": "2^32 values.", "anchors": ["thermal_parser/src/util.rs: parse_u16, parse_u32"]}
{"id": "C15", "title": "Bit flags are exact and mirror images", "statement": "bitflags_lsb returns bit i of the byte in position i, bitflags_msb returns it in position 7-i.", "quantifier": "every byte, every position", "why_tests_cant": "Stated for all bytes and positions at once.", "anchors": ["thermal_parser/src/util.rs: bitflags_lsb, bitflags_msb"]}
{"id": "C16", "title": "Tokenising a thermal file never fails", "statement": "parse_str/thermal file tokenisation returns bytes for every text: no slice is ever taken off a character boundary and no token makes it panic.", "quantifier": "every Unicode string", "why_tests_cant": "Slicing bugs depend on multi-byte characters in arbitrary positions.", "anchors": ["thermal_parser/src/thermal_file.rs"]}
{"id": "C17", "title": "Quoted text round-trips", "statement": "Quoting any text without line breaks, with backslash-escaped quotes and backslashes, and tokenising it yields exactly the bytes of the text.", "quantifier": "every Unicode string without line breaks", "why_tests_cant": "All strings.", "anchors": ["thermal_parser/src/thermal_file.rs"]}
{"id": "C18", "title": "Decimal, hexadecimal and named-constant tokens denote their byte", "statement": "For every byte value b, the decimal token of b, the 0x-hexadecimal token of b and, when it exists, the symbolic constant of b each tokenise to exactly [b]; tokens are separated by any amount of whitespace.", "quantifier": "every byte, every list of tokens, every whitespace separation", "why_tests_cant": "All sequences of tokens.", "anchors": ["thermal_parser/src/thermal_file.rs", "thermal_parser/src/constants.rs"]}
{"id": "C19", "title": "Commands rendered to thermal source re-parse to the same bytes", "statement": "For every non-text command, the thermal source line produced for it tokenises to exactly the command's opcode and data bytes; for a text command this holds when its bytes are UTF-8 without quote or backslash.", "quantifier": "every command with any data", "why_tests_cant": "All data vectors.", "anchors": ["thermal_parser/src/thermal_file.rs: cmd_to_thermal"]}
{"id": "C20", "title": "Bit-packed raster rows unpack bit-exactly", "statement": "For every width, height and raster data of ceil(width/8)*height bytes, unpacking yields exactly width*height values and the value at (x,y) is 255 iff bit 7-(x mod 8) of byte y*ceil(width/8)+x/8 is set, else 0 (row padding bits are ignored).", "quantifier": "every width>0, height, data, pixel", "why_tests_cant": "All sizes, including widths not divisible by eight.", "anchors": ["thermal_parser/src/graphics.rs: unpack_bytes"]}
{"id": "C21", "title": "Column images are the transpose of raster images", "statement": "A column-format image of complete data decodes to the pixel grid whose (x,y) pixel is bit y of column x; in particular decoding never panics for complete data.", "quantifier": "every width, height > 0, data of matching length, pixel", "why_tests_cant": "All sizes.", "anchors": ["thermal_parser/src/graphics.rs: column_to_bytes, rotate_90_clockwise, flip_right_to_left"]}
{"id": "C22", "title": "Image stretching is nearest-neighbour replication", "statement": "scale_pixels returns dimensions (w*sx, h*sy) and pixel (X,Y) equals source pixel (X/sx, Y/sy).", "quantifier": "every w, h, sx, sy (0 treated as 1), data of length w*h within u32", "why_tests_cant": "All sizes and factors.", "anchors": ["thermal_parser/src/graphics.rs: scale_pixels"]}
{"id": "C23", "title": "A decoded image always has width*height pixels", "statement": "Every Image produced by the decoding functions (single colour, multi colour, raster, column, stretched, merged) has exactly w*h pixels; data of the wrong size yields an Error value, never a mis-sized image.", "quantifier": "every decoder input", "why_tests_cant": "All sizes and data.", "anchors": ["thermal_parser/src/graphics.rs: image_from_raster_bytes_single_color, image_from_raster_bytes_multi_color, image_from_column_bytes_single_color, merge_image_layers"]}
{"id": "C24", "title": "Merging layers paints later set dots over earlier ones", "statement": "In a merged multi-colour image each pixel is the last layer whose bit is set at that pixel, or the first layer's pixel if none is.", "quantifier": "every list of equally sized layers with alphas 0/255, every pixel", "why_tests_cant": "Unbounded number of layers.", "anchors": ["thermal_parser/src/graphics.rs: merge_image_layers, RGBA::blend_foreground"]}
{"id": "C25", "title": "Stored graphics behave as a key-indexed map", "statement": "Printing NV or download graphics with key (kc1,kc2) shows the most recently defined, not since cleared, graphic for that key in the same storage, and nothing otherwise; NV and download storages never interfere.", "quantifier": "every history of define/clear/clear-all/print commands", "why_tests_cant": "Histories are unbounded.", "anchors": ["thermal_parser/src/subcommands/gs_graphics/*", "thermal_parser/src/graphics.rs: ImageRef"]}
{"id": "C26", "title": "The print buffer is printed once and then emptied", "statement": "Print-buffer graphics are accumulated by store commands in order, printed merged in that order and the buffer is empty afterwards.", "quantifier": "every sequence of store/print commands", "why_tests_cant": "Histories.", "anchors": ["thermal_parser/src/subcommands/gs_graphics/print_buffer_graphics.rs", "thermal_parser/src/subcommands/gs_graphics/store_buffer_graphics_raster.rs", "thermal_renderer/src/renderer.rs"]}
{"id": "C27", "title": "Word splitting is lossless", "statement": "break_into_words returns spans whose texts concatenate to the original, none empty, with whitespace only at the last position of a word, all keeping the style.", "quantifier": "every span text", "why_tests_cant": "All strings.", "anchors": ["thermal_parser/src/text.rs: break_into_words"]}
{"id": "C28", "title": "Breaking a long word is lossless and respects the line lengths", "statement": "break_apart(f, l) with l>0 returns at least one span; the texts concatenate to the original; the first has at most f characters (empty if f=0), all others between 1 and l characters; it panics exactly when l=0.", "quantifier": "every text, f, l", "why_tests_cant": "All strings and lengths.", "anchors": ["thermal_parser/src/text.rs: break_apart"]}
{"id": "C29", "title": "Text layout keeps every printable character in order", "statement": "Flushing collected text only calls render_text, with non-empty lines, and up to line feeds and tabs the characters handed over are exactly the collected ones, in order, each in its own style; when line feeds and tabs come as spans of their own (as LF and HT give them), none of them is handed over.", "quantifier": "every list of spans, every context", "why_tests_cant": "All layouts.", "anchors": ["thermal_renderer/src/renderer.rs: process_text"]}
{"id": "C30", "title": "Text is laid out top to bottom", "statement": "During one flush the spans of a line share one y and follow one another from left to right, each line lies entirely below all earlier ones, all lines lie between the old and the new pen position, and the pen never moves up.", "quantifier": "every list of spans, every context", "why_tests_cant": "All layouts.", "anchors": ["thermal_renderer/src/renderer.rs: process_text", "thermal_parser/src/context.rs: newline_for_spans"]}
{"id": "C31", "title": "Text never overflows the print width", "statement": "When the print width is at least cw*cw for each span's character width cw, every laid-out span with visible text satisfies x + w <= base + width.", "quantifier": "every list of spans, every starting position", "why_tests_cant": "All layouts.", "anchors": ["thermal_renderer/src/renderer.rs: process_text"]}
{"id": "C32", "title": "Justification stays inside the paper", "statement": "calculate_justification(w) is 0, (W-w)/2 or W-w; whenever w<=W the shifted content still ends inside W.", "quantifier": "every width and context", "why_tests_cant": "All widths.", "anchors": ["thermal_parser/src/context.rs: calculate_justification"]}
{"id": "C33", "title": "Initialise restores power-on style defaults", "statement": "ESC @ resets text, barcode, 2D-code and graphics settings to those of a new context, is idempotent, and makes all earlier style commands unobservable in the style settings.", "quantifier": "every history of commands", "why_tests_cant": "Histories.", "anchors": ["thermal_parser/src/context.rs: Context::reset", "thermal_parser/src/commands/initialize.rs"]}
{"id": "C34", "title": "The stored defaults are immutable", "statement": "No command sequence changes the default context.", "quantifier": "every history of commands", "why_tests_cant": "Histories.", "anchors": ["thermal_parser/src/context.rs: Context", "thermal_renderer/src/renderer.rs"]}
{"id": "C35", "title": "Character scale stays between 1 and 8", "statement": "After any command sequence width and height multipliers are within 1..=8 and the character cell is never zero sized, so layout never divides by zero.", "quantifier": "every history of commands", "why_tests_cant": "Histories.", "anchors": ["thermal_parser/src/commands/set_character_size.rs", "thermal_parser/src/commands/set_print_mode.rs", "thermal_parser/src/context.rs"]}
{"id": "C36", "title": "Style commands only touch what they name", "statement": "Each TextStyle/Context command leaves every setting other than the documented one unchanged.", "quantifier": "every context, every command data", "why_tests_cant": "All contexts times all data bytes.", "anchors": ["thermal_parser/src/commands/*.rs"]}
{"id": "C37", "title": "Page mode area contains the render area", "statement": "After any page area/direction change the page area is at least as large as the render area extends, and within one direction the page never shrinks.", "quantifier": "every sequence of ESC W / ESC T commands", "why_tests_cant": "Histories.", "anchors": ["thermal_parser/src/context.rs: PageModeContext::apply_logical_area"]}
{"id": "C38", "title": "Page direction rotations compose", "statement": "The rotation from direction a to b followed by b to c equals a to c modulo full turns; a to a is none; a to b then b to a is a full turn; after the rotation to b, text printed left to right reads in direction b on the page.", "quantifier": "every three directions", "why_tests_cant": "Composition over histories of direction changes.", "anchors": ["thermal_parser/src/context.rs: calculate_directional_rotation"]}
{"id": "C39", "title": "Available width is consistent", "statement": "get_available_width never exceeds get_width and get_x - base + available = width whenever the pen is inside the area.", "quantifier": "every context", "why_tests_cant": "All contexts.", "anchors": ["thermal_parser/src/context.rs: get_available_width"]}
{"id": "C40", "title": "The canvas stays rectangular", "statement": "After any sequence of canvas operations the pixel buffer is exactly width*height, hence every output has 3*width*height bytes.", "quantifier": "every sequence of canvas operations", "why_tests_cant": "Histories.", "anchors": ["thermal_renderer/src/image_renderer/thermal_image.rs"]}
{"id": "C41", "title": "Rotations move pixels exactly and invert", "statement": "rotate_90 maps (x,y) to (h-1-y,x), rotate_180 and rotate_270 likewise; four quarter turns, 90 then 270, and 180 twice are the identity.", "quantifier": "every canvas", "why_tests_cant": "All sizes.", "anchors": ["thermal_renderer/src/image_renderer/thermal_image.rs: rotate_90, rotate_180, rotate_270"]}
{"id": "C42", "title": "Drawing touches only the target rectangle", "statement": "put_pixels changes no pixel outside the target rectangle, except for appended paper-coloured rows.", "quantifier": "every canvas, rectangle, pixels", "why_tests_cant": "All sizes.", "anchors": ["thermal_renderer/src/image_renderer/thermal_image.rs: put_pixels"]}
{"id": "C43", "title": "Drawing never changes the canvas width", "statement": "put_pixels, draw_rect, put_rect, put_render_img, flip_pixels, expand_to_height leave the width unchanged and never lower the height.", "quantifier": "every canvas and drawing", "why_tests_cant": "All.", "anchors": ["thermal_renderer/src/image_renderer/thermal_image.rs"]}
{"id": "C44", "title": "A locked page canvas never grows", "statement": "With auto_grow disabled put_pixels leaves the height unchanged.", "quantifier": "every canvas, rectangle", "why_tests_cant": "All.", "anchors": ["thermal_renderer/src/image_renderer/thermal_image.rs: put_pixels"]}
{"id": "C45", "title": "Widening the paper centres the content", "statement": "expand_to_width adds floor((n-w)/2) paper columns on the left and the rest on the right and moves every pixel accordingly.", "quantifier": "every canvas, every new width", "why_tests_cant": "All.", "anchors": ["thermal_renderer/src/image_renderer/thermal_image.rs: expand_to_width"]}
{"id": "C46", "title": "Upside-down images are flipped exactly", "statement": "flip_pixels reverses the rows of the rectangle and leaves other pixels unchanged; twice is the identity.", "quantifier": "every canvas, every rectangle", "why_tests_cant": "All.", "anchors": ["thermal_renderer/src/image_renderer/thermal_image.rs: flip_pixels"]}
{"id": "C47", "title": "Cropping keeps the top-left part", "statement": "crop_pixels returns the top-left min(w,maxw) x min(h,maxh) block.", "quantifier": "every bitmap", "why_tests_cant": "All.", "anchors": ["thermal_renderer/src/image_renderer/thermal_image.rs: crop_pixels"]}
{"id": "C48", "title": "Alpha blending is exact for opaque and transparent dots", "statement": "Blending a fully opaque colour replaces the pixel, a transparent one leaves it unchanged.", "quantifier": "every pair of colours", "why_tests_cant": "All colours.", "anchors": ["thermal_parser/src/graphics.rs: RGBA"]}
{"id": "C49", "title": "One document per print job", "statement": "render returns exactly one output for a stream without form feeds; in general one plus the number of standard-mode form feeds.", "quantifier": "every byte string", "why_tests_cant": "All inputs.", "anchors": ["thermal_renderer/src/renderer.rs: render, process_device_commands"]}
{"id": "C50", "title": "Buffered text is flushed before anything that follows it", "statement": "When rendering ends, no collected text is left unprinted; text collected before a graphics or control command is rendered before that command's effect.", "quantifier": "every command sequence", "why_tests_cant": "All.", "anchors": ["thermal_renderer/src/renderer.rs: process_command, process_text"]}
{"id": "C51", "title": "Barcode bars are drawn at exact positions inside the print area", "statement": "The rectangles of a barcode are, for each set module i, at x = start + i*width, all with the same y, width and height, and never extend past the print width.", "quantifier": "every module list, width, height, context", "why_tests_cant": "All.", "anchors": ["thermal_renderer/src/renderer.rs: process_barcode"]}
{"id": "C52", "title": "2D code modules are drawn on an exact grid", "statement": "A 2D code at least two modules wide that fits on the line is drawn as one list of rectangles, exactly its set modules: module i at column i mod width, row i / width of a grid whose corner is the justified left edge and the pen's y.", "quantifier": "every code", "why_tests_cant": "All.", "anchors": ["thermal_renderer/src/renderer.rs: process_code_2d"]}
{"id": "C53", "title": "Images advance the pen by their size", "statement": "Outside page mode a block image is drawn at the justified left edge, advances y by its height and resets x; in page mode, and for images without flow, it is drawn at the pen and the pen stays; an inline image is drawn at the pen, or one line lower at the left margin if it does not fit, and advances x by its width.", "quantifier": "every image and context", "why_tests_cant": "All.", "anchors": ["thermal_renderer/src/renderer.rs: process_image"]}
{"id": "C54", "title": "Paper position never moves up except by reverse commands", "statement": "No command except ESC @ and explicit vertical positioning lowers the paper y position.", "quantifier": "every command sequence", "why_tests_cant": "Histories.", "anchors": ["thermal_renderer/src/renderer.rs", "thermal_parser/src/context.rs"]}
{"id": "C55", "title": "Rendered image has paper width and complete pixel data", "statement": "For streams without form feed, the image output has width equal to the paper width and 3*width*height bytes.", "quantifier": "every byte string for which rendering completes", "why_tests_cant": "All.", "anchors": ["thermal_renderer/src/image_renderer/mod.rs"]}
{"id": "C56", "title": "Unknown commands are reported and do not disturb rendering", "statement": "Every unknown command adds one error and changes neither context nor output.", "quantifier": "every command sequence", "why_tests_cant": "All.", "anchors": ["thermal_renderer/src/renderer.rs: process_command"]}
{"id": "C57", "title": "ASCII is invariant under code pages", "statement": "Under the USA character set every byte 32..126 decodes to the same single character in every code page, except the documented base table deviations.", "quantifier": "every code page, every ASCII string", "why_tests_cant": "All.", "anchors": ["thermal_parser/src/decoder/mod.rs: get_codepage, decode_utf8"]}
{"id": "C58", "title": "Decoding is a homomorphism", "statement": "Without UTF-8 mode decode(a ++ b) = decode(a) ++ decode(b) and the decoder is total.", "quantifier": "every code page, language and byte strings", "why_tests_cant": "All.", "anchors": ["thermal_parser/src/decoder/mod.rs: decode_utf8"]}
{"id": "C59", "title": "Language replacement only touches national characters", "statement": "Selecting a language changes only the listed code points, and unknown code page / language numbers fall back to page 437 / USA.", "quantifier": "every code page, language, byte", "why_tests_cant": "All 65536 selections.", "anchors": ["thermal_parser/src/decoder/mod.rs: get_codepage"]}
{"id": "C60", "title": "UPC check digit makes the weighted sum divisible by ten", "statement": "For 11 digits the computed check digit is a digit and 3*odd + even + check is divisible by 10; any single-digit error is detected.", "quantifier": "every 11 digit string", "why_tests_cant": "10^11 strings.", "anchors": ["thermal_parser/src/utils/barcodes/upce.rs: calculate_checkdigit"]}
{"id": "C61", "title": "UPC-E encoding is total and has 51 modules", "statement": "Every accepted code encodes to 51 modules, all 0/1, starting and ending with the guards.", "quantifier": "every accepted input string", "why_tests_cant": "All.", "anchors": ["thermal_parser/src/utils/barcodes/upce.rs: UPCE::new, encode"]}
{"id": "C62", "title": "UPC-E compression round-trips", "statement": "Expanding a 7 digit UPC-E number to UPC-A and compressing returns the same number.", "quantifier": "every UPC-E number in canonical form", "why_tests_cant": "10^7 numbers.", "anchors": ["thermal_parser/src/utils/barcodes/upce.rs: from_upc_e, from_upc_a"]}
{"id": "C63", "title": "HTML rows keep their vertical positions", "statement": "In the HTML flow each row's top equals its y coordinate whenever rows are emitted in non-decreasing, non-overlapping order.", "quantifier": "every sequence of rows", "why_tests_cant": "All.", "anchors": ["thermal_renderer/src/html_renderer/mod.rs: push_row"]}
{"id": "C64", "title": "SVG bounding boxes contain all rectangles", "statement": "graphics_to_svg emits a viewport containing every rectangle and places them relative to the minimum corner.", "quantifier": "every list of rectangles", "why_tests_cant": "All.", "anchors": ["thermal_renderer/src/html_renderer/thermal_html.rs: graphics_to_svg"]}
{"id": "C65", "title": "Malformed parameters never crash rendering", "statement": "Applying any parsed command to any reachable context returns without panic.", "quantifier": "every command, every context", "why_tests_cant": "All.", "anchors": ["thermal_parser/src/commands/*", "thermal_parser/src/subcommands/*"]}
{"id": "C66", "title": "Image dots have the colour they are printed with", "statement": "Every set dot of a decoded image is opaque and has exactly the colour selected for its plane; unset dots are transparent.", "quantifier": "every image, size, stretch and colour", "why_tests_cant": "All sizes, bit patterns and colours.", "anchors": ["thermal_parser/src/graphics.rs: RGBA::with_alpha, image_from_raster_bytes_single_color"]}
{"id": "C67", "title": "A UPC-E barcode stands for the number that was given", "statement": "A UPC-A number given as UPC-E barcode data is accepted exactly when it has a UPC-E form, and the printed UPC-E number expands back to it.", "quantifier": "every UPC-A number", "why_tests_cant": "10^11 numbers.", "anchors": ["thermal_parser/src/utils/barcodes/upce.rs: from_upc_a"]}
{"id": "C68", "title": "Every output format prints the same document", "statement": "The calls made to the output renderer (text lines, graphics, images, page and device events, with the context of each), their order, the positions, the number of outputs and the renderer's own errors do not depend on the output renderer.", "quantifier": "every byte string, every output renderer", "why_tests_cant": "All inputs and all output renderers.", "anchors": ["thermal_renderer/src/renderer.rs: render, process_command, trait OutputRenderer"]}
{"id": "C69", "title": "Lines are justified exactly", "statement": "Each line is handed over with the height of its tallest span, the justification of its first span and the matching offset: 0 for left, half the free width for centre, the whole free width for right.", "quantifier": "every list of spans, every context", "why_tests_cant": "All layouts.", "anchors": ["thermal_renderer/src/renderer.rs: process_text"]}
{"id": "C72", "title": "The print area is where it was asked for in every direction", "statement": "After ESC W / ESC T the area printed to is the requested rectangle of the page, turned with the page.", "quantifier": "every page, every area inside it, every direction", "why_tests_cant": "All areas and pages.", "anchors": ["thermal_parser/src/context.rs: apply_logical_area, translate_*"]}
{"id": "C73", "title": "Nothing is printed in the margins", "statement": "The 20 leftmost and the 20 rightmost columns of every image the image renderer returns are white, whatever the jobs contain.", "quantifier": "every sequence of jobs, every byte string, every glyph set", "why_tests_cant": "All streams, including positions, areas, pages and images chosen to overflow the printable area.", "anchors": ["thermal_renderer/src/image_renderer/mod.rs: end_render", "thermal_renderer/src/image_renderer/thermal_image.rs: expand_to_width, put_pixels"]}
{"id": "C70", "title": "Style commands do what the command reference says", "statement": "After any prefix of the commands of a stream the printer's style (code table, character set, font, emphasis, italic, underline, double strike, reverse, upside-down, smoothing, size, justification, line spacing, colours, shadow, barcode height, width, font and HRI position) is the one the ESC/POS command reference documents for those commands; barcode modules are always 2 to 6 dots wide and the resolution 180, 203 or 360 dpi.", "quantifier": "every byte string, every prefix of its commands, every output renderer", "why_tests_cant": "All histories of style commands and all 256 values of every parameter.", "anchors": ["thermal_parser/src/commands/*.rs: apply_context", "thermal_parser/src/context.rs: TextContext, BarcodeContext"]}
{"id": "C71", "title": "Text comes out in order and with the style it was sent with", "statement": "The characters the output renderer is asked to draw for a stream, line feeds and tabs aside, are exactly the characters of the stream's text in order, each byte read in the code table and character set in force and each with the font, size, emphasis, italic, underline, strike, reverse, upside-down, justification and colours in force when it was sent, as the command reference documents. Barcode captions only add characters between them.", "quantifier": "every byte string whose style commands are not among the deviations of C70, every output renderer (by C68)", "why_tests_cant": "All interleavings of text and style commands.", "anchors": ["thermal_parser/src/text.rs: TextSpan::new", "thermal_renderer/src/renderer.rs: process_command, collect_text, process_text", "thermal_parser/src/decoder.rs"]}
{"id": "C74", "title": "The text an HTML document shows is the text printed", "statement": "For every stream, the text a reader sees in each HTML document the HTML renderer returns (tags taken away, line breaks aside) is the text of the spans printed on that document, in order; text is never read as markup or as a placeholder of the template.", "quantifier": "every byte string, every picture encoder, every glyph set", "why_tests_cant": "All texts, including those that look like markup or template placeholders, between all other commands.", "anchors": ["thermal_renderer/src/html_renderer/mod.rs: render_text, end_render", "thermal_renderer/src/html_renderer/thermal_html.rs", "thermal_renderer/resources (template)"]}
{"id": "C75", "title": "Text in HTML documents looks as it was printed", "statement": "In every HTML document for a stream, by the document's own style sheet and the CSS cascade, each piece of text has the weight, slant, underline, strike-through, text and background colour, font size, width and height factors and orientation it was printed with.", "quantifier": "every byte string, every picture encoder, every glyph set, every piece of text", "why_tests_cant": "The combination of all style settings (over 10^5 looks) times all streams that reach them.", "anchors": ["thermal_renderer/src/html_renderer/mod.rs: render_text, end_render", "thermal_renderer/resources/templates/thermal.html", "thermal_parser/src/commands/set_character_size.rs"]}
{"id": "C76", "title": "Sizes and colours of text stay in the printer's range", "statement": "Whatever bytes are printed, every piece of text handed to an output renderer is 1 to 8 times as wide and 1 to 8 times as high as its font, and its text and background colours are the paper colour or one of the three inks; this includes barcode captions.", "quantifier": "every byte string, every output renderer (by C68)", "why_tests_cant": "Arbitrary sequences of size, colour, reset and graphics commands, stored graphics included.", "anchors": ["thermal_parser/src/commands/set_character_size.rs", "thermal_parser/src/commands/set_print_mode.rs", "thermal_parser/src/commands/set_character_effects.rs", "thermal_parser/src/text.rs: TextSpan::new, new_for_barcode"]}
{"id": "C77", "title": "The dots of the printed image", "statement": "The image the image renderer returns for a stream without form feeds and page mode shows, between its margins of 20 dots, dot by dot exactly what the calls of the job print one after the other on white paper 609 dots wide: every glyph dot of every character at its place, size and style, underlines, strike-through lines, bars, modules and image dots; nothing is missing at the bottom and no dot has another colour.", "quantifier": "every byte string without form feed and page mode, every glyph set, every dot of the image", "why_tests_cant": "Every dot of every image for all streams; unit tests compare a few pictures.", "anchors": ["thermal_renderer/src/image_renderer/mod.rs", "thermal_renderer/src/image_renderer/canvas.rs: draw_rect, put_pixels, put_render_img, render_text", "thermal_renderer/src/renderer.rs"]}
{"id": "C78", "title": "Text is set where it belongs", "statement": "The characters a job prints are at exactly the places, and in the order, that a simple typesetter gives them: each word starts where the one before it ended; a word that does not fit on the line goes to the left edge of the next line, lower by the line spacing or by the tallest character of the line; a word too long for any line is cut into pieces that fill lines; LF, HT, ESC $, ESC J, ESC d, GS V and ESC @ move the position as documented for this program; and each line is moved right as a whole by what its justification asks for within a paper width of 609 dots.", "quantifier": "every byte string without graphics, page mode, GS P and ESC e, whose words of characters wider than 24 dots fit on a line, and every character of it", "why_tests_cant": "The places of all characters for all texts, widths, wraps and styles; tests compare a few layouts.", "anchors": ["thermal_renderer/src/renderer.rs: process_text, process_device_commands", "thermal_parser/src/text.rs: break_into_words, break_apart, get_dimensions", "thermal_parser/src/context.rs: newline, newline_for_spans, feed, set_x_absolute, set_tab_len"]}
{"id": "C79", "title": "Barcodes carry the documented symbol and text", "statement": "GS k draws the barcode of the symbology that m selects, for the data as documented: the length of the data is checked, UPC-E numbers are suppressed and get their check digit, CODE39 asterisks are dropped, EAN-13 encodes its first twelve digits, CODE128 code set selections are passed to the encoder and left out of the text; module width, height, text position and text font are those set before. Data that no such barcode can carry draw nothing and are reported as an error.", "quantifier": "every number m, every data, every state of the printer, every encoder", "why_tests_cant": "All data of all symbologies in all printer states; tests print a few barcodes.", "anchors": ["thermal_parser/src/commands/barcode.rs", "thermal_parser/src/graphics.rs: Barcode", "thermal_parser/src/text.rs: new_for_barcode"]}
{"id": "C80", "title": "The QR symbol printed is the one stored last", "statement": "GS ( k 49 81 prints the QR symbol of the data stored last (function 80) since ESC @, encoded with the model and error correction level selected, in the smallest version that holds it, each module in the selected size, on an exact grid at the justified left edge; no other command changes it, and without a symbol nothing is drawn.", "quantifier": "every history of commands, every payload, every encoder", "why_tests_cant": "Histories of settings, stores, resets and other commands.", "anchors": ["thermal_parser/src/subcommands/gs_code2d/qr_store.rs", "thermal_parser/src/subcommands/gs_code2d/qr_print.rs", "thermal_parser/src/subcommands/gs_code2d/qr_set_size.rs", "thermal_parser/src/subcommands/gs_code2d/qr_set_model.rs", "thermal_parser/src/subcommands/gs_code2d/qr_set_correction_level.rs"]}
{"id": "C81", "title": "A whole job prints what a reference printer prints", "statement": "For a stream of text, styles, positioning, feeds, barcodes, QR codes, raster images, column images, graphics defined in memory and graphics collected in the print buffer, in standard mode and in page mode, an output renderer is told to do exactly what a reference printer does, in the same order: every character with its look, every bar and module, every picture dot by dot that is put on the paper or on the page, each at its place; pages that begin, are turned into the print direction and made large enough for the print area, and where on the paper a page is put; documents that begin with a feed and end, and how far down the paper. What is printed later starts where the earlier things end.", "quantifier": "every well-formed stream of such items, in every order, with every payload and every encoder; left out are the items for which another property records that the program differs from the documentation (GS P, ESC e, column definitions, colour 3, scaled memory graphics, incomplete image data, ESC * modes 1 and 32, GS v 0 mode 51, symbols wider than the lines; in page mode ESC $ and GS $ in turned print directions, tabs in an area that is not at the left edge of the page, areas beyond the page in turned directions, ESC W and ESC T in standard mode)", "why_tests_cant": "The effects of settings, memories and positions on each other in every order; a test prints a few receipts.", "anchors": ["thermal_renderer/src/renderer.rs: process_command, process_graphics, process_text", "thermal_parser/src/context.rs", "thermal_parser/src/graphics.rs", "thermal_parser/src/commands/", "thermal_parser/src/subcommands/"]}
{"id": "C82", "title": "All images of a job, with pages", "statement": "Whatever a stream contains (any number of documents, pages with any area and in any print direction), the images that the image renderer returns show, one for one and dot by dot, the sheets printed by the calls of the job: what is printed in page mode goes on the page, the page is turned into the print direction when its area is set, and is put upright on the paper where and when it is printed; every finished document gives one image, blank beside what is printed, exactly as high as what is printed or fed, whichever reaches further down.", "quantifier": "all byte streams, all shapes of the glyphs in range, all images that are returned", "why_tests_cant": "The page is turned, widened, lengthened and cut depending on everything printed before; a comparison of example images covers a few jobs, not all interleavings of page and standard mode and documents.", "anchors": ["thermal_renderer/src/image_renderer/mod.rs: render_page, page_begin, page_area_changed, begin_render, end_render", "thermal_renderer/src/image_renderer/thermal_image.rs", "thermal_renderer/src/renderer.rs: process_command"]}
{"id": "C83", "title": "From bytes to dots", "statement": "The images that the image renderer returns for a stream of text, styles, positioning, feeds, barcodes, QR codes, raster and column images and stored or buffered graphics, in standard mode and in page mode, show, one for one and dot by dot, the sheets that a reference printer prints on white paper 609 dots wide: the lines of text, each piece on the common baseline of its line in its look, underlined, struck through, upside down as asked; bars and modules in the text colour; pictures; each printed over what is there; and pages, put on the paper turned so that their lines run in the print direction. Every image is exactly as high as its sheet is in use.", "quantifier": "all streams of items that the reference printer is about (no command this program treats differently from the reference), all encoders, all shapes of the glyphs in range", "why_tests_cant": "It relates every dot of every image to the bytes of the stream through parsing, styles, layout, drawing and the canvas; example images fix only their own streams.", "anchors": ["thermal_parser/src/parser.rs", "thermal_parser/src/context.rs", "thermal_parser/src/text.rs", "thermal_renderer/src/renderer.rs", "thermal_renderer/src/image_renderer/mod.rs", "thermal_renderer/src/image_renderer/thermal_image.rs"]}
{"id": "C84", "title": "Positions in page mode", "statement": "In page mode ESC $ puts the position the given number of motion units from the start of the line and GS $ the given number below the top of the print area, both as seen in the print direction; GS \\ moves it down by a signed number but not above the page; tab stops count from the left edge of the print area; ESC W asks for the area it names, also when it is sent in standard mode; nothing else changes, and none of these fails.", "quantifier": "every context in page mode, every print direction, all parameters, all motion units", "why_tests_cant": "All positions, areas and print directions times all parameters.", "anchors": ["thermal_parser/src/context.rs: PageModeContext::set_x_absolute, set_y_absolute, offset_y_relative, set_page_area", "thermal_parser/src/commands/set_horizontal_pos.rs", "thermal_parser/src/commands/set_vertical_pos.rs", "thermal_parser/src/commands/offset_vertical_pos.rs", "thermal_parser/src/commands/page_mode_print_area.rs"]}
{"id": "C85", "title": "Thermal source is readable", "statement": "The thermal source written for the commands of a stream consists of printable ASCII characters and line breaks only, so that it can be read and edited as text, whatever bytes the commands and their data have.", "quantifier": "every byte string, every command of it, every data byte", "why_tests_cant": "All data vectors and all opcode bytes, including those of unknown commands.", "anchors": ["thermal_parser/src/thermal_file.rs: cmd_to_thermal, try_const, try_string, explain_unknown, explain_command"]}
{"id": "C86", "title": "From bytes to a web page", "statement": "For a stream of text, styles, positioning, feeds, barcodes, QR codes, images and stored graphics, in standard and page mode, each HTML document shows, in order and at its place, exactly what a reference printer prints on that document: every line of text with every piece at its x on the common baseline and, by the document's own style sheet, in its look; every bar and module; every picture and every printed page of page mode, dot by dot. Rows stand at their y, shifted down only by as much as rows before them overlap. The document is as wide as the paper with its margins, begins with the feed at the start of the job, and below the last row leaves space down to where printing ended, if that was not in page mode.", "quantifier": "all streams of well-formed items this program prints as documented (any number, order and size), all glyph shapes and picture encoders, all documents of a job", "why_tests_cant": "it composes parsing, layout, page painting and HTML generation for unboundedly many command sequences; a screenshot test compares a few receipts", "anchors": ["thermal_renderer/src/html_renderer/mod.rs: HtmlRenderer", "thermal_renderer/src/html_renderer/thermal_html.rs: spans_to_html, graphics_to_svg, encode_html_image", "thermal_renderer/src/renderer.rs: Renderer::render"]}
{"id": "C87", "title": "Floating-point arithmetic moves nothing and tints nothing", "statement": "Wherever the program computes with floating-point numbers, the result is that of the exact formula: blended and multiplied colours are the exact values rounded to the nearest, for all bytes; baselines, underlines, strike-through lines, margins, line thicknesses and correction levels are the exact values rounded down, for all sizes of characters and all settings. The only exception is the choice of a dot when a glyph is squeezed: where the exact quotient is a whole number it may be the dot before, and it is always a dot of the glyph.", "quantifier": "all bytes for colours (16 million combinations per channel), all heights of characters and lines a stream can ask for, all dots of squeezed glyphs up to 192 dots, all resolutions, all numbers of codewords", "why_tests_cant": "an error of one unit in the last place shows only for particular values among millions; a test compares a few pictures", "anchors": ["thermal_parser/src/graphics.rs: RGBA::blend_foreground_with_alpha, RGBA::multiply_foreground", "thermal_renderer/src/image_renderer/thermal_image.rs: render_span, scale_bitmap, expand_to_width", "thermal_renderer/src/html_renderer/thermal_html.rs: span_to_html", "thermal_parser/src/context.rs: points_to_pixels", "thermal_parser/src/subcommands/gs_code2d/pdf417_set_correction_level.rs"]}
{"id": "C88", "title": "Jobs one after the other", "statement": "A renderer can be used for any number of jobs. Every job begins with a new, blank sheet, nothing of an earlier job is printed in a later one, and the images of a job do not depend on what was printed before it with the same renderer.", "quantifier": "all sequences of jobs, all byte streams, all glyph shapes", "why_tests_cant": "what leaks from one job into the next depends on every setting a stream can change; a test tries a few pairs of jobs", "anchors": ["thermal_renderer/src/renderer.rs: Renderer::render", "thermal_parser/src/context.rs: Context::reset", "thermal_parser/src/commands/initialize.rs", "thermal_renderer/src/image_renderer/mod.rs: ImageRenderer::begin_render"]}
{"id": "C89", "title": "A debug profile only marks", "statement": "Rendering with a debug profile (outlined characters, images or pages) changes nothing but the marks: the same stream is rendered to the end, gives as many images, of the same widths and heights, and the same web pages except for what the pictures of printed pages show.", "quantifier": "all byte streams, all eight debug profiles, all glyph shapes, all picture encoders", "why_tests_cant": "the marks are drawn on canvases that grow, are rotated and copied; whether they ever change a size or fail depends on every geometry a stream can produce", "anchors": ["thermal_renderer/src/renderer.rs: DebugProfile, Renderer::set_debug_profile", "thermal_renderer/src/image_renderer/mod.rs: begin_render, render_page", "thermal_renderer/src/image_renderer/thermal_image.rs: draw_border, put_render_img, render_span", "thermal_renderer/src/html_renderer/mod.rs: begin_render"]}
{"id": "C90", "title": "What cannot be printed is reported", "statement": "The errors returned with the outputs of a job say what of the job could not be printed: one error for each symbol or stored graphic that is printed although it does not exist or cannot be encoded, one for each unknown command, one for each picture that lies outside the paper or the page, and none for anything else; the errors belong to the job they are returned with.", "quantifier": "all jobs, all commands after all histories, all output renderers, all answers of the symbol encoders, all pictures and canvases", "why_tests_cant": "whether an item can be printed depends on everything stored before it in the stream, and an error may be lost in any of the layers between the handler and the caller", "anchors": ["thermal_renderer/src/renderer.rs: Renderer::render, process_command, process_graphics, log_error, get_render_errors", "thermal_renderer/src/image_renderer/mod.rs: get_render_errors, begin_render, end_render", "thermal_renderer/src/image_renderer/thermal_image.rs: put_pixels"]}
{"id": "C91", "title": "Pictures in columns with several colours", "statement": "The public decoder for pictures given in columns with several colour layers gives, for data of the documented form (for every colour one byte that names it and the columns, bit by bit), the picture of the layers over one another, and for data of any other size an error; it does not panic.", "quantifier": "all widths, heights, stretches, numbers of colours, palettes and data", "why_tests_cant": "the size check, the cuts of the layers and the number of layers must agree for all sizes", "anchors": ["thermal_parser/src/graphics.rs: GraphicsCommand::image_from_column_bytes_multi_color"]}
{"id": "C92", "title": "The commands of the protocol have their parameters", "statement": "Every ESC/POS command with a fixed number of parameter bytes that the parser knows is read with the number of parameters the protocol documents, wherever it stands among well-formed items and whatever the parameter bytes are; the byte after them begins something else.", "quantifier": "all commands of the table, all parameter values, all well-formed items before and after", "why_tests_cant": "a wrong number of parameters shifts the reading of everything that follows, and parameters can have the values of opcodes", "anchors": ["thermal_parser/src/command_sets/esc_pos.rs", "thermal_parser/src/commands/*.rs: new", "thermal_parser/src/command.rs: DataType, Command::push"]}
{"id": "C93", "title": "The output renderer is told about the device", "statement": "An output renderer is told exactly what the job asks of the device, in order: begin and end of every document, begin, area, printing and end of pages, cuts, feeds with their amounts, cancel, initialize, pulses and requests, and the settings; each is announced before it is carried out and after everything that stands before it in the stream has been drawn.", "quantifier": "all jobs, all commands after all histories, all output renderers", "why_tests_cant": "the sequence depends on the whole stream (page mode, text that is still waiting), and every renderer, also one written by a user, must get the same", "anchors": ["thermal_renderer/src/renderer.rs: process_command, device_command", "thermal_parser/src/command.rs: DeviceCommand, CommandHandler::get_device_command", "thermal_parser/src/commands/*.rs: get_device_command", "thermal_renderer/src/renderer.rs: OutputRenderer"]}
{"id": "C94", "title": "Text comes out in the documented characters", "statement": "Every byte of a text comes out as the character that the documentation gives for it: bytes from 128 on by the published table of the selected code page, bytes below by the table of the selected international character set; a page that is not supported is not silently read as another one.", "quantifier": "all code pages, all character sets, all byte strings of every length", "why_tests_cant": "nine code pages times 128 and 27 sets times 128 characters in any combination, and every text made of them; a test compares the tables at a few places", "anchors": ["thermal_parser/src/decoder/mod.rs: get_codepage", "thermal_parser/src/decoder/codepage_*.rs", "thermal_parser/src/commands/set_code_table.rs", "thermal_parser/src/commands/set_international_charset.rs"]}
{"id": "C95", "title": "The log describes every command", "statement": "With logging on, one line is written for every command of a job, in order, which names the command and shows its parameters: text as it will be printed, positions and sizes as numbers, selected tables by name, all else in hexadecimal so that nothing is lost. Writing the log never fails and changes nothing in what is printed.", "quantifier": "all streams, all histories of a renderer, all output renderers", "why_tests_cant": "the lines depend on everything selected before, and the log is computed for every command even when it is not shown, so it must not fail for any data", "anchors": ["thermal_parser/src/command.rs: CommandHandler::debug", "thermal_parser/src/commands/*.rs: debug", "thermal_parser/src/subcommands/mod.rs: debug", "thermal_renderer/src/renderer.rs: render, log_debug"]}
{"id": "C96", "title": "A plain receipt", "statement": "A job of lines of at most 50 printable ASCII characters, each followed by a line feed, is printed to the end and gives one image, 649 dots wide and 108 dots and 24 for each line high, in which the k-th character of the n-th line is the glyph of that character in the normal font, black on white, 20 + 12 k dots from the left edge and 108 + 24 n dots from the top; every other dot is white.", "quantifier": "all receipts of any number of such lines (printed to the end: up to 24000 bytes), all shapes of glyphs, every byte of the image", "why_tests_cant": "there are unboundedly many receipts; the statement is about each byte of each image and joins the parser, the decoder, the layout, the painting and the composition of the image", "anchors": ["thermal_renderer/src/image_renderer/mod.rs: render, ImageRenderer", "thermal_renderer/src/renderer.rs: process_text", "thermal_parser/src/parser.rs: parse_bytes", "thermal_parser/src/commands/text.rs", "thermal_parser/src/commands/linefeed.rs"]}
{"id": "C97", "title": "Damaged UTF-8 text", "statement": "In UTF-8 mode (ESC t 255) a text of any bytes is decoded to exactly the text the Unicode standard prescribes, and never fails: a character whose bytes are all there comes out as itself, and where none is, one U+FFFD stands for the longest beginning of a character, or for one byte when there is none; in particular a text cut off within its last character is the text and one U+FFFD. The selected international character set changes nothing.", "quantifier": "all byte strings, all character sets", "why_tests_cant": "the byte strings are endless, and every place where a character can be damaged behaves in its own way", "anchors": ["thermal_parser/src/decoder/mod.rs: decode_utf8"]}
{"id": "C98", "title": "A plain receipt as a web page", "statement": "A job of lines of at most 50 printable ASCII characters without {, each followed by a line feed, gives one HTML page and is rendered to the end: a block of 108 dots at the top, then for every line that is not empty a block 24 dots high that begins 108 + 24 n dots from the top, where n is the number of the line; in it the words of the line in order, each 12 dots right of the left edge for every character before it, as upright black text that is neither bold nor underlined nor struck through nor stretched; and space at the end so that the page is as high as all lines.", "quantifier": "all receipts of any number of such lines (rendered to the end: up to 8 million bytes)", "why_tests_cant": "there are unboundedly many receipts; the statement is about the whole text of the page and joins the parser, the decoder, the layout, the rows and the style sheet of the document", "anchors": ["thermal_renderer/src/html_renderer/mod.rs", "thermal_renderer/src/html_renderer/thermal_html.rs", "thermal_renderer/src/renderer.rs: process_text"]}
