import json
P=[]
def p(title, statement, quantifier, why, anchors):
    P.append(dict(id="C%02d"%(len(P)+1), title=title, statement=statement, quantifier=quantifier, why_tests_cant=why, anchors=anchors))
PA="thermal_parser/src/"
RE="thermal_renderer/src/"
# ---- parser
p("Every parse is framed by Begin Print / End Print",
  "Parser::parse_bytes, whenever it returns, returns a list whose first command is Begin Print and whose last command is End Print, and these two occur nowhere else in the list.",
  "every byte string, every parser state left by earlier calls",
  "Input space is all byte strings; tests sample a handful of receipts.",
  [PA+"parser.rs: Parser::parse_bytes, emit_command", PA+"commands/begin_print.rs", PA+"commands/end_print.rs"])
p("A parser can be reused",
  "Calling parse_bytes on a parser that has already parsed any number of other inputs returns exactly what a freshly created parser returns for the same bytes.",
  "every finite history of earlier inputs, every next input",
  "Quantifies over histories of calls; leaked state shows only after particular earlier inputs (open opcode, open payload).",
  [PA+"parser.rs: Parser::parse_bytes"])
p("Parsing is streaming: later bytes never rewrite earlier commands",
  "If parse_bytes(xs) returns and parse_bytes(xs ++ ys) returns, then every command of the first result except the one still open at the end (and End Print) appears, in the same position and with the same data, in the second result.",
  "every byte string and every way to extend it",
  "Universally quantified over two unbounded strings; the bug classes are look-ahead dependent.",
  [PA+"parser.rs: Parser::parse, parse_bytes"])
p("The number of commands is linear in the input",
  "parse_bytes returns at most |bytes| + 3 commands.",
  "every byte string", "A bound over all inputs cannot be sampled.",
  [PA+"parser.rs: Parser::parse"])
p("The opcode table is unambiguous",
  "No opcode of the ESC/POS command set is a prefix of, or equal to, another, no opcode is empty, and at every parser position where no command is open or the open command is complete, the bytes of an opcode select exactly that command.",
  "every pair of commands in the set; every parser state at an item boundary",
  "Tests exercise single opcodes, not all pairs in all parser states.",
  [PA+"command_sets/esc_pos.rs: new", PA+"parser.rs: Parser::parse"])
p("Fixed-size commands carry exactly their parameter bytes",
  "Every command with a fixed parameter count (0,1,2,3,4,8) returned by parse_bytes carries exactly that many data bytes, except that the command just before End Print may carry fewer (the input ended).",
  "every byte string, every command in the result",
  "Must hold after any garbage prefix and any interleaving of commands.",
  [PA+"command.rs: Command::push", PA+"parser.rs: Parser::parse"])
p("The parser never invents or reorders bytes",
  "Concatenating, for every returned command, its opcode and data bytes gives a subsequence of the input bytes.",
  "every byte string on which parse_bytes returns",
  "Duplication or reordering depends on arbitrary interleavings of partial opcodes, payloads and garbage.",
  [PA+"parser.rs: Parser::parse, emit_command", PA+"subcommands/mod.rs"])
p("Well-formed streams are split exactly into their items",
  "For every sequence of well-formed items (text runs, fixed-size commands, barcodes, bit images, raster images, character effects, cuts and length-prefixed sub-commands), parse_bytes of the concatenated encodings returns precisely these items, in order, each with its own opcode and payload; concatenating the returned bytes restores the input.",
  "every finite sequence of well-formed items with any payload bytes",
  "Unbounded sequences and payloads; framing errors appear only for particular neighbours.",
  [PA+"parser.rs", PA+"command.rs: Command::push", PA+"commands/barcode.rs", PA+"commands/bit_image.rs", PA+"commands/raster_bit_image.rs", PA+"commands/feed_and_cut.rs", PA+"commands/set_character_effects.rs", PA+"subcommands/mod.rs"])
p("Payload bytes are opaque",
  "Inside a length-prefixed payload (barcode function B, bit image, raster image, sub-command) any byte values, including complete opcodes, are taken as data and never start another command.",
  "every payload content, every following bytes",
  "Needs all payload contents against all opcodes.",
  [PA+"commands/barcode.rs: push", PA+"commands/bit_image.rs: push", PA+"commands/raster_bit_image.rs: push", PA+"subcommands/mod.rs: SubCommandHandler::push"])
p("parse_bytes panics only on a declared sub-command length below two",
  "parse_bytes returns normally on every byte string unless the bytes contain a sub-command header (GS ( k, GS ( L, GS ( H or GS 8 L) whose declared length is less than 2, in which case the arithmetic overflow check panics.",
  "every byte string",
  "Totality over all inputs; fuzzing samples.",
  [PA+"subcommands/mod.rs: SubCommandHandler::parse_meta", PA+"parser.rs"])
p("Plain text survives parsing verbatim",
  "A stream containing no opcode-starting byte is returned as a single Text command holding exactly those bytes, whatever follows it.",
  "every string over the non-opcode-starting bytes",
  "All strings.", [PA+"parser.rs", PA+"commands/text.rs"])
p("Every input byte is accounted for",
  "The only bytes missing from the concatenated output are: a CAN byte not followed by '@', an opcode left incomplete at the end of input, and the (possibly incomplete or unrecognised) sub-commands that are dropped; all other bytes appear in the output.",
  "every byte string",
  "Loss occurs only for particular byte neighbourhoods.", [PA+"parser.rs: Parser::parse"])
p("Sub-commands are routed by their function bytes",
  "GS ( L / GS 8 L select the graphics function named by fn and GS ( k selects the 2D-code function named by (cn, fn); the selected sub-command receives exactly the declared payload; an unknown function yields no command but its payload is still consumed.",
  "every header, every payload, every following bytes",
  "65536 (cn, fn) pairs times all payloads.", [PA+"subcommands/mod.rs: SubCommandHandler", PA+"subcommands/gs_graphics/mod.rs", PA+"subcommands/gs_code2d/mod.rs"])
# ---- util
p("Little-endian integers decode exactly",
  "parse_u16/parse_u32 at an index return the little-endian value of the bytes there (missing bytes read as zero), for every value; encoding then decoding is the identity.",
  "every byte vector, every index, every 16/32-bit value", "2^32 values.", [PA+"util.rs: parse_u16, parse_u32"])
p("Bit flags are exact and mirror images",
  "bitflags_lsb returns bit i of the byte in position i, bitflags_msb returns it in position 7-i.",
  "every byte, every position", "Stated for all bytes and positions at once.", [PA+"util.rs: bitflags_lsb, bitflags_msb"])
# ---- thermal file
p("Tokenising a thermal file never fails",
  "parse_str/thermal file tokenisation returns bytes for every text: no slice is ever taken off a character boundary and no token makes it panic.",
  "every Unicode string", "Slicing bugs depend on multi-byte characters in arbitrary positions.", [PA+"thermal_file.rs"])
p("Quoted text round-trips",
  "Quoting any text with backslash-escaped quotes and backslashes and tokenising it yields exactly the bytes of the text.",
  "every Unicode string", "All strings.", [PA+"thermal_file.rs"])
p("Decimal, hexadecimal and named-constant tokens denote their byte",
  "For every byte value b, the decimal token of b, the 0x-hexadecimal token of b and, when it exists, the symbolic constant of b each tokenise to exactly [b]; tokens are separated by any amount of whitespace.",
  "every byte, every list of tokens, every whitespace separation", "All sequences of tokens.", [PA+"thermal_file.rs", PA+"constants.rs"])
p("Commands rendered to thermal source re-parse to the same bytes",
  "For every non-text command, the thermal source line produced for it tokenises to exactly the command's opcode and data bytes; for a text command this holds when its bytes are UTF-8 without quote or backslash.",
  "every command with any data", "All data vectors.", [PA+"thermal_file.rs: cmd_to_thermal"])
# ---- graphics decoding
G=PA+"graphics.rs"
p("Bit-packed raster rows unpack bit-exactly",
  "For every width, height and raster data of ceil(width/8)*height bytes, unpacking yields exactly width*height values and the value at (x,y) is 255 iff bit 7-(x mod 8) of byte y*ceil(width/8)+x/8 is set, else 0 (row padding bits are ignored).",
  "every width>0, height, data, pixel", "All sizes, including widths not divisible by eight.", [G+": unpack_bytes"])
p("Column images are the transpose of raster images",
  "A column-format image of complete data decodes to the pixel grid whose (x,y) pixel is bit y of column x; in particular decoding never panics for complete data.",
  "every width, height > 0, data of matching length, pixel", "All sizes.", [G+": column_to_bytes, rotate_90_clockwise, flip_right_to_left"])
p("Image stretching is nearest-neighbour replication",
  "scale_pixels returns dimensions (w*sx, h*sy) and pixel (X,Y) equals source pixel (X/sx, Y/sy).",
  "every w, h, sx, sy (0 treated as 1), data of length w*h within u32", "All sizes and factors.", [G+": scale_pixels"])
p("A decoded image always has width*height pixels",
  "Every Image produced by the decoding functions (single colour, multi colour, raster, column, stretched, merged) has exactly w*h pixels; data of the wrong size yields an Error value, never a mis-sized image.",
  "every decoder input", "All sizes and data.", [G+": image_from_raster_bytes_single_color, image_from_raster_bytes_multi_color, image_from_column_bytes_single_color, merge_image_layers"])
p("Merging layers paints later set dots over earlier ones",
  "In a merged multi-colour image each pixel is the last layer whose bit is set at that pixel, or the first layer's pixel if none is.",
  "every list of equally sized layers with alphas 0/255, every pixel", "Unbounded number of layers.", [G+": merge_image_layers, RGBA::blend_foreground"])
p("Stored graphics behave as a key-indexed map",
  "Printing NV or download graphics with key (kc1,kc2) shows the most recently defined, not since cleared, graphic for that key in the same storage, and nothing otherwise; NV and download storages never interfere.",
  "every history of define/clear/clear-all/print commands", "Histories are unbounded.", [PA+"subcommands/gs_graphics/*", G+": ImageRef"])
p("The print buffer is printed once and then emptied",
  "Print-buffer graphics are accumulated by store commands in order, printed merged in that order and the buffer is empty afterwards.",
  "every sequence of store/print commands", "Histories.", [PA+"subcommands/gs_graphics/print_buffer_graphics.rs", PA+"subcommands/gs_graphics/store_buffer_graphics_raster.rs", RE+"renderer.rs"])
# ---- text
T=PA+"text.rs"
p("Word splitting is lossless", "break_into_words returns spans whose texts concatenate to the original, none empty, with whitespace only at the last position of a word, all keeping the style.",
  "every span text", "All strings.", [T+": break_into_words"])
p("Breaking a long word is lossless and respects the line lengths", "break_apart(f, l) with l>0 returns at least one span; the texts concatenate to the original; the first has at most f characters (empty if f=0), all others between 1 and l characters; it panics exactly when l=0.",
  "every text, f, l", "All strings and lengths.", [T+": break_apart"])
p("Text layout keeps every printable character in order", "Flushing collected text passes to the output renderer lines whose spans, concatenated in order, are the collected text minus its line feeds and tabs.",
  "every list of spans, every context", "All layouts.", [RE+"renderer.rs: process_text"])
p("Text is laid out top to bottom", "During one flush each rendered line's y is not above the previous line's y and the pen never moves up.",
  "every list of spans, every context", "All layouts.", [RE+"renderer.rs: process_text", PA+"context.rs: newline_for_spans"])
p("Text never overflows the print width", "When the print width is at least cw*cw for each span's character width cw, every laid-out span satisfies x + w <= base + width.",
  "every list of spans, every starting position", "All layouts.", [RE+"renderer.rs: process_text"])
p("Justification stays inside the paper", "calculate_justification(w) is 0, (W-w)/2 or W-w; whenever w<=W the shifted content still ends inside W.",
  "every width and context", "All widths.", [PA+"context.rs: calculate_justification"])
# ---- context
C=PA+"context.rs"
p("Initialise restores power-on style defaults", "ESC @ resets text, barcode, 2D-code and graphics settings to those of a new context, is idempotent, and makes all earlier style commands unobservable in the style settings.",
  "every history of commands", "Histories.", [C+": Context::reset", PA+"commands/initialize.rs"])
p("The stored defaults are immutable", "No command sequence changes the default context.", "every history of commands", "Histories.", [C+": Context", RE+"renderer.rs"])
p("Character scale stays between 1 and 8", "After any command sequence width and height multipliers are within 1..=8 and the character cell is never zero sized, so layout never divides by zero.",
  "every history of commands", "Histories.", [PA+"commands/set_character_size.rs", PA+"commands/set_print_mode.rs", C])
p("Style commands only touch what they name", "Each TextStyle/Context command leaves every setting other than the documented one unchanged.",
  "every context, every command data", "All contexts times all data bytes.", [PA+"commands/*.rs"])
p("Page mode area contains the render area", "After any page area/direction change the page area is at least as large as the render area extends, and within one direction the page never shrinks.",
  "every sequence of ESC W / ESC T commands", "Histories.", [C+": PageModeContext::apply_logical_area"])
p("Page direction rotations compose", "The rotation from direction a to b followed by b to c equals a to c modulo full turns; a to a is none; a to b then b to a is a full turn.",
  "every three directions", "Composition over histories of direction changes.", [C+": calculate_directional_rotation"])
p("Available width is consistent", "get_available_width never exceeds get_width and get_x - base + available = width whenever the pen is inside the area.",
  "every context", "All contexts.", [C+": get_available_width"])
# ---- canvas
I=RE+"image_renderer/thermal_image.rs"
p("The canvas stays rectangular", "After any sequence of canvas operations the pixel buffer is exactly width*height, hence every output has 3*width*height bytes.",
  "every sequence of canvas operations", "Histories.", [I])
p("Rotations move pixels exactly and invert", "rotate_90 maps (x,y) to (h-1-y,x), rotate_180 and rotate_270 likewise; four quarter turns, 90 then 270, and 180 twice are the identity.",
  "every canvas", "All sizes.", [I+": rotate_90, rotate_180, rotate_270"])
p("Drawing touches only the target rectangle", "put_pixels changes no pixel outside the target rectangle, except for appended paper-coloured rows.",
  "every canvas, rectangle, pixels", "All sizes.", [I+": put_pixels"])
p("Drawing never changes the canvas width", "put_pixels, draw_rect, put_rect, put_render_img, flip_pixels, expand_to_height leave the width unchanged and never lower the height.",
  "every canvas and drawing", "All.", [I])
p("A locked page canvas never grows", "With auto_grow disabled put_pixels leaves the height unchanged.", "every canvas, rectangle", "All.", [I+": put_pixels"])
p("Widening the paper centres the content", "expand_to_width adds floor((n-w)/2) paper columns on the left and the rest on the right and moves every pixel accordingly.",
  "every canvas, every new width", "All.", [I+": expand_to_width"])
p("Upside-down images are flipped exactly", "flip_pixels reverses the rows of the rectangle and leaves other pixels unchanged; twice is the identity.",
  "every canvas, every rectangle", "All.", [I+": flip_pixels"])
p("Cropping keeps the top-left part", "crop_pixels returns the top-left min(w,maxw) x min(h,maxh) block.", "every bitmap", "All.", [I+": crop_pixels"])
p("Alpha blending is exact for opaque and transparent dots", "Blending a fully opaque colour replaces the pixel, a transparent one leaves it unchanged.", "every pair of colours", "All colours.", [G+": RGBA"])
# ---- renderer
R=RE+"renderer.rs"
p("One document per print job", "render returns exactly one output for a stream without form feeds; in general one plus the number of standard-mode form feeds.",
  "every byte string", "All inputs.", [R+": render, process_device_commands"])
p("Buffered text is flushed before anything that follows it", "When rendering ends, no collected text is left unprinted; text collected before a graphics or control command is rendered before that command's effect.",
  "every command sequence", "All.", [R+": process_command, process_text"])
p("Barcode bars are drawn at exact positions inside the print area", "The rectangles of a barcode are, for each set module i, at x = start + i*width, all with the same y, width and height, and never extend past the print width.",
  "every module list, width, height, context", "All.", [R+": process_barcode"])
p("2D code modules are drawn on an exact grid", "For a code that fits, the rectangle of module i is at column i mod width, row i / width of the grid.",
  "every code", "All.", [R+": process_code_2d"])
p("Images advance the pen by their size", "Block images advance y by their height and reset x; inline images advance x by width, wrapping first if they do not fit.",
  "every image and context", "All.", [R+": process_image"])
p("Paper position never moves up except by reverse commands", "No command except ESC @ and explicit vertical positioning lowers the paper y position.",
  "every command sequence", "Histories.", [R, C])
p("Rendered image has paper width and complete pixel data", "For streams without form feed, the image output has width equal to the paper width and 3*width*height bytes.",
  "every byte string for which rendering completes", "All.", [RE+"image_renderer/mod.rs"])
p("Unknown commands are reported and do not disturb rendering", "Every unknown command adds one error and changes neither context nor output.", "every command sequence", "All.", [R+": process_command"])
# ---- decoder
D=PA+"decoder/mod.rs"
p("ASCII is invariant under code pages", "Under the USA character set every byte 32..126 decodes to the same single character in every code page, except the documented base table deviations.",
  "every code page, every ASCII string", "All.", [D+": get_codepage, decode_utf8"])
p("Decoding is a homomorphism", "Without UTF-8 mode decode(a ++ b) = decode(a) ++ decode(b) and the decoder is total.", "every code page, language and byte strings", "All.", [D+": decode_utf8"])
p("Language replacement only touches national characters", "Selecting a language changes only the listed code points, and unknown code page / language numbers fall back to page 437 / USA.",
  "every code page, language, byte", "All 65536 selections.", [D+": get_codepage"])
# ---- upce
U=PA+"utils/barcodes/upce.rs"
p("UPC check digit makes the weighted sum divisible by ten", "For 11 digits the computed check digit is a digit and 3*odd + even + check is divisible by 10; any single-digit error is detected.",
  "every 11 digit string", "10^11 strings.", [U+": calculate_checkdigit"])
p("UPC-E encoding is total and has 51 modules", "Every accepted code encodes to 51 modules, all 0/1, starting and ending with the guards.", "every accepted input string", "All.", [U+": UPCE::new, encode"])
p("UPC-E compression round-trips", "Expanding a 7 digit UPC-E number to UPC-A and compressing returns the same number.", "every UPC-E number in canonical form", "10^7 numbers.", [U+": from_upc_e, from_upc_a"])
# ---- html
H=RE+"html_renderer/mod.rs"
p("HTML rows keep their vertical positions", "In the HTML flow each row's top equals its y coordinate whenever rows are emitted in non-decreasing, non-overlapping order.",
  "every sequence of rows", "All.", [H+": push_row"])
p("SVG bounding boxes contain all rectangles", "graphics_to_svg emits a viewport containing every rectangle and places them relative to the minimum corner.",
  "every list of rectangles", "All.", [RE+"html_renderer/thermal_html.rs: graphics_to_svg"])
p("Malformed parameters never crash rendering", "Applying any parsed command to any reachable context returns without panic.", "every command, every context", "All.", [PA+"commands/*", PA+"subcommands/*"])
with open('/verif/properties.jsonl','w') as f:
    for x in P: f.write(json.dumps(x)+"\n")
print(len(P))
