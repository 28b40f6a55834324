{
 "claims": [
  {
   "property": "C01",
   "status": "proved",
   "theorems": [
    "Thermal.C01_framed"
   ],
   "note": ""
  },
  {
   "property": "C02",
   "status": "proved",
   "theorems": [
    "Thermal.C02_reusable"
   ],
   "note": ""
  },
  {
   "property": "C03",
   "status": "proved",
   "theorems": [
    "Thermal.C03_streaming"
   ],
   "note": ""
  },
  {
   "property": "C04",
   "status": "proved",
   "theorems": [
    "Thermal.C04_linear"
   ],
   "note": ""
  },
  {
   "property": "C05",
   "status": "proved",
   "theorems": [
    "Thermal.C05_table_unambiguous",
    "Thermal.C05_opcode_selects"
   ],
   "note": ""
  },
  {
   "property": "C06",
   "status": "proved",
   "theorems": [
    "Thermal.C06_fixed_arity"
   ],
   "note": ""
  },
  {
   "property": "C08",
   "status": "partial",
   "theorems": [
    "Thermal.C08_stream",
    "Thermal.C08_split_partial",
    "Thermal.C08_full_claim_false"
   ],
   "note": "The full claim is false of the code (C08_full_claim_false); C08_stream says exactly what is returned for every well-formed stream."
  },
  {
   "property": "C09",
   "status": "proved",
   "theorems": [
    "Thermal.C09_payload_opaque",
    "Thermal.C09_payload_data"
   ],
   "note": ""
  },
  {
   "property": "C11",
   "status": "proved",
   "theorems": [
    "Thermal.C11_text_verbatim",
    "Thermal.C11_text_alone"
   ],
   "note": ""
  },
  {
   "property": "C13",
   "status": "partial",
   "theorems": [
    "Thermal.C13_graphics_routing",
    "Thermal.C13_large_graphics_routing",
    "Thermal.C13_code2d_routing_partial",
    "Thermal.C13_exceptions"
   ],
   "note": "GS ( k routing is wrong for (52,67) and (54,67) (C13_exceptions)."
  },
  {
   "property": "C07",
   "status": "proved",
   "theorems": [
    "Thermal.C07_subsequence"
   ],
   "note": ""
  },
  {
   "property": "C10",
   "status": "proved",
   "theorems": [
    "Thermal.C10_panics_only_on_short_length",
    "Thermal.C10_short_length_panics"
   ],
   "note": ""
  },
  {
   "property": "C12",
   "status": "proved",
   "theorems": [
    "Thermal.C12_every_byte_accounted"
   ],
   "note": ""
  },
  {
   "property": "C14",
   "status": "proved",
   "theorems": [
    "Thermal.C14_little_endian",
    "Thermal.C14_in_range",
    "Thermal.C14_round_trip16",
    "Thermal.C14_round_trip32"
   ],
   "note": ""
  },
  {
   "property": "C15",
   "status": "proved",
   "theorems": [
    "Thermal.C15_bitflags"
   ],
   "note": ""
  },
  {
   "property": "C16",
   "status": "proved",
   "theorems": [
    "Thermal.C16_never_fails"
   ],
   "note": ""
  },
  {
   "property": "C17",
   "status": "proved",
   "theorems": [
    "Thermal.C17_quote_round_trip",
    "Thermal.C17_line_break_differs"
   ],
   "note": ""
  },
  {
   "property": "C18",
   "status": "proved",
   "theorems": [
    "Thermal.C18_words",
    "Thermal.C18_lines",
    "Thermal.C18_comments"
   ],
   "note": ""
  },
  {
   "property": "C19",
   "status": "partial",
   "theorems": [
    "Thermal.C19_round_trip_partial",
    "Thermal.C19_parsed_partial",
    "Thermal.C19_full_claim_false"
   ],
   "note": "False of the code for text with quotes or backslashes, tab and carriage return commands and empty unknown commands (C19_full_claim_false); proved for everything else."
  },
  {
   "property": "C20",
   "status": "proved",
   "theorems": [
    "Thermal.C20_unpack",
    "Thermal.C20_size_iff"
   ],
   "note": ""
  },
  {
   "property": "C21",
   "status": "proved",
   "theorems": [
    "Thermal.C21_column",
    "Thermal.C21_column_image"
   ],
   "note": ""
  },
  {
   "property": "C22",
   "status": "proved",
   "theorems": [
    "Thermal.C22_scale"
   ],
   "note": ""
  },
  {
   "property": "C23",
   "status": "partial",
   "theorems": [
    "Thermal.C23_raster",
    "Thermal.C23_raster_total",
    "Thermal.C23_multi",
    "Thermal.C23_merge",
    "Thermal.C23_column_partial",
    "Thermal.C23_column_short_panics"
   ],
   "note": "Column images with too little data panic instead of giving an Error value (C23_column_short_panics); everything else is proved."
  },
  {
   "property": "C24",
   "status": "proved",
   "theorems": [
    "Thermal.C24_merge",
    "Thermal.C24_multi_colour"
   ],
   "note": ""
  },
  {
   "property": "C40",
   "status": "proved",
   "theorems": [
    "Thermal.C40_rectangular",
    "Thermal.C40_output"
   ],
   "note": "every sequence of calls of the public canvas operations on a new canvas; glyphs are a parameter"
  },
  {
   "property": "C41",
   "status": "proved",
   "theorems": [
    "Thermal.C41_rotate_90",
    "Thermal.C41_rotate_180",
    "Thermal.C41_rotate_270",
    "Thermal.C41_inverse",
    "Thermal.C41_empty"
   ],
   "note": "the identities need at least one row: turning an empty canvas loses its width (C41_empty, not representable as a picture)"
  },
  {
   "property": "C42",
   "status": "proved",
   "theorems": [
    "Thermal.C42_outside",
    "Thermal.C42_inside",
    "Thermal.C42_refused",
    "Thermal.C42_drawn_iff"
   ],
   "note": "every canvas, rectangle and picture, both ways of combining"
  },
  {
   "property": "C43",
   "status": "proved",
   "theorems": [
    "Thermal.C43_width_kept",
    "Thermal.C43_growth"
   ],
   "note": "all drawing operations, including render_span"
  },
  {
   "property": "C44",
   "status": "partial",
   "theorems": [
    "Thermal.C44_locked_partial",
    "Thermal.C44_grows"
   ],
   "note": "false as stated: put_pixels tests y + width instead of y + height, so a locked canvas grows when a picture higher than wide crosses the bottom edge (C44_grows)"
  },
  {
   "property": "C45",
   "status": "proved",
   "theorems": [
    "Thermal.C45_centred"
   ],
   "note": "every canvas and width"
  },
  {
   "property": "C46",
   "status": "proved",
   "theorems": [
    "Thermal.C46_flip",
    "Thermal.C46_twice",
    "Thermal.C46_opaque"
   ],
   "note": "opaque canvases; every operation keeps a canvas opaque (C46_opaque)"
  },
  {
   "property": "C47",
   "status": "proved",
   "theorems": [
    "Thermal.C47_crop"
   ],
   "note": "every complete bitmap of fewer than 2^32 dots"
  },
  {
   "property": "C48",
   "status": "proved",
   "theorems": [
    "Thermal.C48_alpha",
    "Thermal.C48_multiply",
    "Thermal.C48_between"
   ],
   "note": ""
  },
  {
   "property": "C66",
   "status": "partial",
   "theorems": [
    "Thermal.C66_dot_colour_partial",
    "Thermal.C66_colour_wrong"
   ],
   "note": "with_alpha copies green into blue; proved for red, green and alpha."
  },
  {
   "property": "C57",
   "status": "proved",
   "theorems": [
    "Thermal.C57_ascii_invariant"
   ],
   "note": ""
  },
  {
   "property": "C58",
   "status": "proved",
   "theorems": [
    "Thermal.C58_homomorphism",
    "Thermal.C58_one_character_per_byte",
    "Thermal.C58_utf8"
   ],
   "note": ""
  },
  {
   "property": "C59",
   "status": "proved",
   "theorems": [
    "Thermal.C59_only_national",
    "Thermal.C59_halves",
    "Thermal.C59_fallback",
    "Thermal.C59_replaces",
    "Thermal.C59_text"
   ],
   "note": ""
  },
  {
   "property": "C60",
   "status": "proved",
   "theorems": [
    "Thermal.C60_divisible",
    "Thermal.C60_detects_single_error"
   ],
   "note": ""
  },
  {
   "property": "C61",
   "status": "proved",
   "theorems": [
    "Thermal.C61_51_modules",
    "Thermal.C61_readable",
    "Thermal.C61_symbol"
   ],
   "note": ""
  },
  {
   "property": "C62",
   "status": "proved",
   "theorems": [
    "Thermal.C62_round_trip"
   ],
   "note": ""
  },
  {
   "property": "C67",
   "status": "partial",
   "theorems": [
    "Thermal.C67_suppression_exact_partial",
    "Thermal.C67_suppression_wrong"
   ],
   "note": "False of the code: UPC-A numbers without a UPC-E form are accepted and printed as another number (C67_suppression_wrong)."
  },
  {
   "property": "C27",
   "status": "proved",
   "theorems": [
    "Thermal.C27_words",
    "Thermal.C27_unique",
    "Thermal.C27_white"
   ],
   "note": ""
  },
  {
   "property": "C28",
   "status": "proved",
   "theorems": [
    "Thermal.C28_break_apart"
   ],
   "note": ""
  },
  {
   "property": "C32",
   "status": "proved",
   "theorems": [
    "Thermal.C32_justification"
   ],
   "note": ""
  },
  {
   "property": "C37",
   "status": "proved",
   "theorems": [
    "Thermal.C37_page_area"
   ],
   "note": ""
  },
  {
   "property": "C38",
   "status": "proved",
   "theorems": [
    "Thermal.C38_compose",
    "Thermal.C38_injective",
    "Thermal.C38_reading",
    "Thermal.C38_history"
   ],
   "note": ""
  },
  {
   "property": "C39",
   "status": "proved",
   "theorems": [
    "Thermal.C39_available",
    "Thermal.C39_offset"
   ],
   "note": ""
  },
  {
   "property": "C33",
   "status": "proved",
   "theorems": [
    "Thermal.C33_initialize_restores",
    "Thermal.C33_idempotent",
    "Thermal.C33_history_forgotten"
   ],
   "note": ""
  },
  {
   "property": "C34",
   "status": "proved",
   "theorems": [
    "Thermal.C34_defaults_immutable",
    "Thermal.C34_render"
   ],
   "note": ""
  },
  {
   "property": "C35",
   "status": "proved",
   "theorems": [
    "Thermal.C35_scale"
   ],
   "note": ""
  },
  {
   "property": "C36",
   "status": "partial",
   "theorems": [
    "Thermal.C36_only_documented_partial",
    "Thermal.C36_exceptions"
   ],
   "note": "Two code2d settings write the wrong field (C36_exceptions)."
  },
  {
   "property": "C54",
   "status": "proved",
   "theorems": [
    "Thermal.C54_paper_never_moves_up"
   ],
   "note": ""
  },
  {
   "property": "C25",
   "status": "proved",
   "theorems": [
    "Thermal.C25_print_stored"
   ],
   "note": "ESC @ empties the NV memory too, and definitions in column format are decoded as raster data (findings in DESIGN.md); the specification says so."
  },
  {
   "property": "C26",
   "status": "proved",
   "theorems": [
    "Thermal.C26_print_buffer"
   ],
   "note": ""
  },
  {
   "property": "C29",
   "status": "proved",
   "theorems": [
    "Thermal.C29_text_kept"
   ],
   "note": "Stated for the recording renderer; C68 carries it to every output renderer."
  },
  {
   "property": "C30",
   "status": "proved",
   "theorems": [
    "Thermal.C30_top_to_bottom"
   ],
   "note": ""
  },
  {
   "property": "C31",
   "status": "proved",
   "theorems": [
    "Thermal.C31_inside_width",
    "Thermal.C31_needs_width"
   ],
   "note": ""
  },
  {
   "property": "C68",
   "status": "proved",
   "theorems": [
    "Thermal.C68_same_calls",
    "Thermal.C68_performed",
    "Thermal.C68_two"
   ],
   "note": ""
  },
  {
   "property": "C69",
   "status": "proved",
   "theorems": [
    "Thermal.C69_justified"
   ],
   "note": ""
  },
  {
   "property": "C49",
   "status": "proved",
   "theorems": [
    "Thermal.C49_documents",
    "Thermal.C49_one_document"
   ],
   "note": ""
  },
  {
   "property": "C50",
   "status": "proved",
   "theorems": [
    "Thermal.C50_flush_first",
    "Thermal.C50_collect",
    "Thermal.C50_nothing_left"
   ],
   "note": ""
  },
  {
   "property": "C51",
   "status": "proved",
   "theorems": [
    "Thermal.C51_bars",
    "Thermal.C51_inside"
   ],
   "note": "Stated for the recording renderer; C68 carries it to every output renderer."
  },
  {
   "property": "C52",
   "status": "proved",
   "theorems": [
    "Thermal.C52_grid",
    "Thermal.C52_needs_two"
   ],
   "note": ""
  },
  {
   "property": "C53",
   "status": "proved",
   "theorems": [
    "Thermal.C53_block",
    "Thermal.C53_still",
    "Thermal.C53_inline"
   ],
   "note": ""
  },
  {
   "property": "C56",
   "status": "proved",
   "theorems": [
    "Thermal.C56_unknown",
    "Thermal.C56_reported"
   ],
   "note": ""
  },
  {
   "property": "C72",
   "status": "partial",
   "theorems": [
    "Thermal.C72_area_placed_partial",
    "Thermal.C72_misplaced"
   ],
   "note": "Holds for two of the four directions; refuted for the other two."
  },
  {
   "property": "C55",
   "status": "proved",
   "theorems": [
    "Thermal.C55_image_size",
    "Thermal.C55_reaches_pen"
   ],
   "note": ""
  },
  {
   "property": "C73",
   "status": "proved",
   "theorems": [
    "Thermal.C73_margins"
   ],
   "note": ""
  },
  {
   "property": "C70",
   "status": "partial",
   "theorems": [
    "Thermal.C70_style_partial",
    "Thermal.C70_deviations",
    "Thermal.C70_limits"
   ],
   "note": "Holds except for the commands of Style.deviates (ESC ! underline bit, ESC G off, GS B odd parameters, GS w 0/1, GS ( N with parameters outside the reference), which are refuted by C70_deviations."
  },
  {
   "property": "C71",
   "status": "proved",
   "theorems": [
    "Thermal.C71_printed",
    "Thermal.C71_with_captions"
   ],
   "note": "For streams without the commands this program treats differently from the reference (C70_deviations). Thickness of underlines: only whether there is one."
  },
  {
   "property": "C63",
   "status": "proved",
   "theorems": [
    "Thermal.C63_tops",
    "Thermal.C63_in_order",
    "Thermal.C63_documents"
   ],
   "note": "Block flow as in Spec.tops; rows that overlap earlier rows are shifted down by the overlap (C63_tops)."
  },
  {
   "property": "C64",
   "status": "proved",
   "theorems": [
    "Thermal.C64_svg"
   ],
   "note": ""
  },
  {
   "property": "C74",
   "status": "partial",
   "theorems": [
    "Thermal.C74_reads_partial",
    "Thermal.C74_stream_partial",
    "Thermal.C74_not_escaped",
    "Thermal.C74_substituted"
   ],
   "note": "Proved for text without < and {. False for text with them (C74_not_escaped, C74_substituted): the code does not escape text."
  },
  {
   "property": "C75",
   "status": "partial",
   "theorems": [
    "Thermal.C75_look_partial",
    "Thermal.C75_not_shown"
   ],
   "note": "All but the size and orientation hold for every piece of text (underline where it is not struck through as well, font size for fonts A and B); size and orientation are right exactly in the cases stated. C75_not_shown: a stream for which they are wrong."
  },
  {
   "property": "C76",
   "status": "proved",
   "theorems": [
    "Thermal.C76_sizes_and_colours"
   ],
   "note": ""
  },
  {
   "property": "C65",
   "status": "partial",
   "theorems": [
    "Thermal.C65_returns_partial",
    "Thermal.C65_one_partial",
    "Thermal.C65_text",
    "Thermal.C65_panics",
    "Thermal.C65_image",
    "Thermal.C65_image_partial",
    "Thermal.C65_image_short_partial",
    "Thermal.C65_image_text",
    "Thermal.C65_image_panics",
    "Thermal.C65_html",
    "Thermal.C65_html_partial",
    "Thermal.C65_html_text",
    "Thermal.C65_html_panics",
    "Thermal.C65_image_standard_partial",
    "Thermal.C65_html_standard_partial"
   ],
   "note": "False as stated: C65_panics lists streams that panic. Proved: any sequence of print jobs with parameters in the documented ranges (Tame) that feeds less than about 2^31 dots is rendered to the end; every print job of text and styles only, with any parameters, below 8 million bytes. For the image renderer itself: any stream whose calls are within its limits, any tame stream that stays on the paper, every text stream below 24000 bytes is drawn to the end. For the HTML renderer: any stream within its limits, any tame stream without empty images and pages, every text stream below 8 million bytes becomes a web page. C65_image_standard_partial and C65_html_standard_partial have conditions on the commands only: receipts in standard mode with text, styles, barcodes, 2D codes and images."
  },
  {
   "property": "C77",
   "status": "proved",
   "theorems": [
    "Thermal.C77_picture"
   ],
   "note": ""
  },
  {
   "property": "C78",
   "status": "proved",
   "theorems": [
    "Thermal.C78_typeset",
    "Thermal.C78_unit_inverted",
    "Thermal.C78_wide_not_cut",
    "Thermal.C78_tab_stays",
    "Thermal.C27_white"
   ],
   "note": "The three other theorems show why GS P and long words of wide characters are outside the quantifier, and the rule for tabs."
  },
  {
   "property": "C79",
   "status": "partial",
   "theorems": [
    "Thermal.C79_barcode_partial",
    "Thermal.C79_gs1_missing",
    "Thermal.C79_deviations"
   ],
   "note": "False as stated for m = 74..79 (C79_gs1_missing), ITF and Codabar of two characters and CODE128 texts with other uses of { (C79_deviations), UPC-A numbers without a UPC-E form (C67_suppression_wrong) and data that are not ASCII. Proved for all others."
  },
  {
   "property": "C80",
   "status": "partial",
   "theorems": [
    "Thermal.C80_symbol_partial",
    "Thermal.C80_parameter_encoded",
    "Thermal.C80_text_not_encoded",
    "Thermal.C80_level_ignored",
    "Thermal.C80_deviations"
   ],
   "note": "False as documented: the parameter m is encoded with the data, the documented levels are ignored, the size counts when storing, and data that cannot be encoded leave the older symbol. Proved: after any history the symbol printed is exactly that of the last accepted payload under the settings at that time, and nothing else in the history matters."
  },
  {
   "property": "C81",
   "status": "proved",
   "theorems": [
    "Thermal.C81_printer"
   ],
   "note": "For all fair streams (Press.fairs, Spec/Printer), also in page mode and of several documents; what fairness leaves out is covered by the negative theorems of the other claims (page mode: C84_deviations, C84_tab_misplaced). The reference printer goes on beside the last row of a QR code, as the program does (C52), and feeds by the height of the page as seen in the print direction (finding 63)."
  },
  {
   "property": "C82",
   "status": "proved",
   "theorems": [
    "Thermal.C82_sheets"
   ],
   "note": "Only the glyph shapes are a parameter. The sheets are those of Spec/Sheets, for the acts (Spec/Printer) the calls of the job are about. The example shows that the recorded job of a stream with a turned page and a form feed gives the sheets one expects."
  },
  {
   "property": "C83",
   "status": "proved",
   "theorems": [
    "Thermal.C83_dots"
   ],
   "note": "C08 (parsing), C81 (reference printer) and C82 (paper and pages) joined; Spec/Paint says what things look like, with its own colour arithmetic (Spec/Colour), Spec/Sheets what happens to paper and pages. Only the glyph shapes and the rounding of scale_bitmap are parameters."
  },
  {
   "property": "C84",
   "status": "partial",
   "theorems": [
    "Thermal.C84_position_partial",
    "Thermal.C84_what_is_done",
    "Thermal.C84_area_units",
    "Thermal.C84_deviations",
    "Thermal.C84_tab_misplaced"
   ],
   "note": "Proved for the normal print direction, motion units of one dot, ESC W in page mode. The claim is false of the code in turned directions, for tabs, and in standard mode: C84_what_is_done gives the exact effect in every direction, C84_deviations and C84_tab_misplaced compare with the reference printer."
  },
  {
   "property": "C85",
   "status": "partial",
   "theorems": [
    "Thermal.C85_readable_partial",
    "Thermal.C85_text_not_readable"
   ],
   "note": "Proved for all commands other than text. Text is written as it is, so control characters and characters beyond ASCII in it appear in the source: C85_text_not_readable."
  },
  {
   "property": "C86",
   "status": "proved",
   "theorems": [
    "Thermal.C86_web_pages",
    "Thermal.C86_shown_again",
    "Thermal.C86_space_lost"
   ],
   "note": "Proved for the fair items of C81 and text without {. Rows that show nothing only if there is a symbol (one without dark parts gives such a row). Boxes are shown in black whatever their colour; a document after a form feed shows the earlier ones again (C86_shown_again); a document that ends in page mode has no space for what was fed before (C86_space_lost)."
  },
  {
   "property": "C87",
   "status": "proved",
   "theorems": [
    "Thermal.C87_arithmetic",
    "Thermal.C87_one_rounding",
    "Thermal.C87_blend",
    "Thermal.C87_multiply",
    "Thermal.C87_heights",
    "Thermal.C87_baseline",
    "Thermal.C87_shift",
    "Thermal.C87_strike",
    "Thermal.C87_fitted",
    "Thermal.C87_fitted_off_by_one",
    "Thermal.C87_fitted_exact",
    "Thermal.C87_web",
    "Thermal.C87_points",
    "Thermal.C87_paper",
    "Thermal.C87_half",
    "Thermal.C87_pdf417"
   ],
   "note": "The model of f32 is proved to round as IEEE 754 asks (C87_arithmetic). C87_heights shows that the heights of C87_baseline to C87_web are all that occur."
  },
  {
   "property": "C88",
   "status": "partial",
   "theorems": [
    "Thermal.C88_jobs",
    "Thermal.C88_initialized_partial",
    "Thermal.C88_full_claim_false",
    "Thermal.C88_position_stays",
    "Thermal.C88_style_stays",
    "Thermal.C88_page_mode_stays",
    "Thermal.C88_web_jobs",
    "Thermal.C88_web_space_stays"
   ],
   "note": "C88_jobs says for all sequences of jobs what every image shows: each job begins with a blank sheet; C88_web_jobs says the same of web pages. The independence is false of the code (position, styles and page mode stay: three negative theorems; on web pages the space at the top stays even after ESC @: a fourth); proved for jobs that begin with ESC @ after jobs without page mode, byte for byte."
  },
  {
   "property": "C89",
   "status": "partial",
   "theorems": [
    "Thermal.C89_images_partial",
    "Thermal.C89_web_partial",
    "Thermal.C89_page_panics",
    "Thermal.C89_image_panics",
    "Thermal.C89_text_grows",
    "Thermal.C89_image_outline",
    "Thermal.C89_page_outline",
    "Thermal.C89_text_outline"
   ],
   "note": "Proved: number and widths of the images, heights if text is not outlined (and never lower), and the web pages; dot by dot what an outline is. False of the code: with outlined pages or images an empty page or image panics (C89_page_panics, C89_image_panics), and the base line of a line of control characters makes the paper grow (C89_text_grows)."
  },
  {
   "property": "C90",
   "status": "partial",
   "theorems": [
    "Thermal.C90_commands",
    "Thermal.C90_printer_partial",
    "Thermal.C90_refused",
    "Thermal.C90_told",
    "Thermal.C90_stay",
    "Thermal.C90_silent",
    "Thermal.C90_text_first"
   ],
   "note": "Proved for every command, history and renderer which errors are added (C90_commands), for whole jobs that the errors are one per barcode that cannot be encoded and per QR code printed without one stored (C90_printer_partial), when a picture is refused (C90_refused) and that all messages of the image renderer are returned (C90_told). False of the code: missing stored graphics, other missing symbols and an empty print buffer are not reported (C90_silent), a job that begins with text is reported to contain an unknown command (C90_text_first), the messages of the image renderer are returned again with every later job (C90_stay)."
  },
  {
   "property": "C91",
   "status": "partial",
   "theorems": [
    "Thermal.C91_never_a_picture",
    "Thermal.C91_size_partial",
    "Thermal.C91_one_layer"
   ],
   "note": "False of the code, for all inputs: the decoder never gives a picture (C91_never_a_picture); data of the documented size is refused and data of the size it asks for makes it panic (C91_one_layer). Proved: another size than the one it asks for is answered with an error. No command of the crate uses the function."
  },
  {
   "property": "C92",
   "status": "partial",
   "theorems": [
    "Thermal.C92_protocol_partial",
    "Thermal.protocol_set",
    "Thermal.C92_otherwise"
   ],
   "note": "Proved for the 42 commands of Spec/Protocol, a table written from the documentation; protocol_set says that the command set has these and only three more of fixed size. False of the code for those three: CAN, ESC D and GS ( G (C92_otherwise)."
  },
  {
   "property": "C93",
   "status": "partial",
   "theorems": [
    "Thermal.C93_job_partial",
    "Thermal.C93_command_partial",
    "Thermal.C93_any_partial",
    "Thermal.C93_deviations"
   ],
   "note": "Proved: the calls of a job that are not drawing are exactly those of Spec/Told, which is computed from opcodes and parameters, in order, for every history (C93_job_partial) and every renderer (C93_any_partial), and each command first draws what is waiting (C93_command_partial). Partial because the code departs from the documentation: ESC p and requests are not told, ESC S does not tell the end of the page, feed-and-cut tells the cut first (C93_deviations)."
  },
  {
   "property": "C94",
   "status": "partial",
   "theorems": [
    "Thermal.C94_pages_partial",
    "Thermal.C94_national_partial",
    "Thermal.C94_text_partial",
    "Thermal.C94_missing",
    "Thermal.C94_deviations"
   ],
   "note": "Proved against tables written independently (Spec/Characters): exactly the bytes of wrongPage (3 in PC850, 8 in PC865) and wrongNational (59 in 12 character sets) come out as another character, all others and all texts of them as documented. False of the code for those bytes, and code pages without a table are read as PC437 (C94_missing, C94_deviations). Sets 16 and 17 (Vietnam, Arabia) and the part of page 1 outside JIS X 0201 have no table in the specification."
  },
  {
   "property": "C95",
   "status": "partial",
   "theorems": [
    "Thermal.C95_log_partial",
    "Thermal.C95_again_partial",
    "Thermal.C95_line_partial",
    "Thermal.C95_text",
    "Thermal.C95_shows_data",
    "Thermal.C95_names_partial",
    "Thermal.C95_deviations"
   ],
   "note": "Proved: rendering with the log is rendering without it, plus one line per command, the one of Spec/Log (C95_log_partial; for renderers used before C95_again_partial); texts are shown as printed (C95_text), parameters in hexadecimal without loss (C95_shows_data), and every command has the name that goes with its bytes (C95_names_partial: all but carriage returns and the functions of GS ( L, GS 8 L, GS ( k). False of the code for ESC t and ESC R, whose lines show what was selected before, and for GS ( H, whose line is empty (C95_deviations); C95_line_partial says that these are the only ones. Quoting of texts ({:?}) is a parameter."
  },
  {
   "property": "C96",
   "status": "proved",
   "theorems": [
    "Thermal.C96_receipt",
    "Thermal.C96_printed"
   ],
   "note": "C96_receipt: every byte of the image of every receipt that is printed to the end; C96_printed: receipts up to 24000 bytes are printed to the end. Glyph shapes (fontdue) are a parameter, the specification (Spec/Receipt) refers to nothing else of the program."
  },
  {
   "property": "C97",
   "status": "proved",
   "theorems": [
    "Thermal.C97_damaged",
    "Thermal.C97_cut_off",
    "Thermal.C97_strict"
   ],
   "note": "Against the rule of the Unicode standard (Spec/Utf8), as an equivalence: the decoded text is the one text the bytes read as. from_utf8_lossy of the Rust library is modelled from its documentation."
  },
  {
   "property": "C98",
   "status": "proved",
   "theorems": [
    "Thermal.C98_receipt",
    "Thermal.C98_shown"
   ],
   "note": "C98_receipt: whatever is rendered to the end is that page (Spec/WebReceipt); C98_shown: receipts up to 8 million bytes are. What classes a word has is left open; what they look like by the style sheet of the page is stated."
  }
 ]
}