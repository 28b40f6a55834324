1. CAN followed by anything but `@` drops the CAN; CAN ESC makes the ESC text; CAN LF puts the LF into text data (C12).
2. An opcode cut off at the end of the input is dropped (C12).
3. An empty Unknown command is emitted when a stream starts with text (C11).
4. A sub-command cut off at the end of the input is emitted with empty data or dropped (C12, C08_full_claim_false).
5. A NUL-terminated barcode keeps the terminator in its data when it ends the input (C08).
6. A sub-command that declares a length below 2 panics with an overflow (C10_short_length_panics).
7. `cmd_to_thermal` does not escape quotes and backslashes, loses HT/CR commands, and an empty Unknown re-parses to garbage (C19_full_claim_false). Quoted text with a line break is split (C17_line_break_differs).
8. `parse_tokens` drops unquoted characters that stand directly before a quote.
9. `RGBA::with_alpha` uses green for blue (C66_colour_wrong).
10. Column images panic on truncated data (C23_column_short_panics); `store_buffer_graphics` takes `data[8..]` of 4–7 bytes; `define_*_column` unwraps fields of fewer than 8 bytes; multi-colour bits need a width divisible by 8.
11. `process_text`: `(max_width/cw).max(cw)` overflows the width for wide characters (C31_needs_width); right justification underflows for a line wider than the paper.
12. GS P with a value above the resolution makes a motion unit 0, and a later position divides by it; 360/1 is truncated to a u8 (104).
13. ESC @ resets the render area's y to 60, drops stored NV graphics and does not leave page mode.
14. ESC e n casts a negative feed to u32: overflow panic.
15. `put_pixels` tests y + width instead of y + height: a locked page grows (C44_grows).
16. FF in standard mode ends the document; the paper canvas then has width 0, so what is printed afterwards is lost; errors are reported again (C49).
17. UPC-E compression uses `&&` for `||`: numbers without a UPC-E form are printed as another number (C67_suppression_wrong); the check digit is not validated.
18. EAN-13 slices `&data[..12]` off a character boundary for non-ASCII data.
19. HTML text is not escaped and `{{receipt-style}}` in it is substituted.
20. `process_code_2d`: `continue` without advancing, y is not advanced past the last row, a width of 1 never starts a new row (C52_needs_two).
21. `select_standard_mode` has kind Context, so its EndPageMode device command is never issued.
22. `composite_set_max_width` writes the GS1 field; `datamatrix_set_width` is registered under (52,67) and hides `composite_set_width` (C36_exceptions, C13_exceptions). Data matrix d1+d2, MaxiCode n-48, PDF417 m-48 overflow; the PDF417 level ladder only reaches 7 or 8.
23. `qr_store` casts the length to i16; raster scaling tests 3|52 for 3|51.
24. Undefined slots of code pages 851, 853 and 857 decode to nothing (C58).
25. A stray ESC swallows the command after it (ESC ESC @).
26. GS ( H always loses its header bytes (C12); `get_nv_remaining_capacity` is registered under 4/52 instead of 3/51.
27. `get_command_bytes` of Unknown reports the list of marker bytes as opcode.
28. width*height overflows u32 for large truncated raster images.
29. NV/download graphics defined in column format are decoded as raster data (C25).
30. Merging layers of different size paints by linear index.
31. `bit_image` 8-dot modes stay column encoded.
32. Widening a page while something is drawn on it centres the drawn content.
33. Page areas in two of the four directions are misplaced (C72_misplaced).
34. Turning an empty canvas loses its width (C41_empty).
35. ESC ! takes underline from bit 6 instead of bit 7 (C70_deviations).
36. ESC G 1, ESC G 0 leaves a single strike-through (C70_deviations).
37. ESC D takes exactly two bytes.
38. GS B compares n with 1 instead of its lowest bit; GS B 0 resets the colour (C70_deviations).
39. GS w 0 and 1 set 2 instead of being ignored (C70_deviations).
40. GS ( N with m=48 ("none") selects colour 1 (C70_deviations).
41. ITF and Codabar barcodes of two characters are rejected.
42. HTML: inline images on one line are stacked (rows at the same y are displaced, C63_tops).
43. HTML: images without pixels panic in the png encoder: a raster image of width or height 0, and a page printed with `ESC L` ... `FF` without `ESC W` (C65_html_panics).
44. HTML: text that continues a line after a flushing command is shown on the next line.
45. HTML CSS: different width and height factors conflict, upside-down is lost when stretched, underline with strike-through shows only the strike-through, double underline is shown as single; padding-right uses paper_area.y.
46. HTML: a 1D or 2D code without any dark module pushes a row at y = 0 that resets the flow position.
47. HTML styles fonts B and C only: fonts D, E and the special fonts are laid out 9 by 17 but shown in the size of font A, and font C is laid out like B but shown at .65em.
48. ESC W with a page area of more than 2^32 dots panics in the image renderer (C65_image_panics); so does a print buffer whose layers merge into an image of that size.
49. GS P inverts the motion unit: ESC $ and the page mode positions are divided by dpi/x where they should be multiplied (C78_unit_inverted).
50. HT at a tab stop, also at the start of a line, does not move (C78_tab_stays). ESC D does not flush the text before it, so it also changes the stops of tabs already sent; ESC D without parameters sets stop 24 to 24.
51. CR prints a character cell: it is laid out and drawn like a letter.
52. GS k with m = 74..79 (GS1-128, GS1 DataBar, CODE128 auto) draws nothing: those kinds are matched against 80..85, which the encoding check never accepts (C79_gs1_missing).
53. CODE128 data: `{{`, `{S`, `{1`..`{4` are passed to the encoder as they are, and the code set selections are removed one letter after the other, so that `{{AB` has no text (C79_deviations).
54. GS f changes the font of a barcode's text but not its character cell, which stays that of the text font.
55. A right-justified or centred line that is split by a command which flushes (GS h, GS w, ... in the middle of a line) has each part justified on its own, the second part from its own start, so it ends outside the paper.
56. Printing NV or download graphics ignores the magnification x, y.
57. ESC * modes 1 and 32 have the wrong proportions: single density and double density dots are printed as in modes 33 and 0.
58. GS ( k 49 80: the parameter m (48) is encoded as the first byte of the data, so every QR code reads `0...` (C80_parameter_encoded, C80_text_not_encoded).
59. GS ( k 49 69 compares n with 1, 2, 3 instead of 49, 50, 51: always level L (C80_level_ignored). The capacity table is that of level L, also for micro QR codes.
60. GS ( k 49 67 after the data were stored has no effect; data that cannot be encoded leave the symbol stored before, which is printed again (C80_deviations).
61. Printing PDF417, MaxiCode, GS1 DataBar, composite, Aztec or DataMatrix symbols prints the QR symbol stored last (C80_deviations).
62. After a 2D code the pen is at the top of its last row of modules: text that follows on the same line overlaps it.
63. After a page printed in a direction turned by 90 degrees (ESC T 1 or 3) the paper advances by the height of the page area as seen in that direction, not by the height of the upright page: what follows overlaps the page or leaves a gap (`ESC L`, `ESC W 0 0 60 100`, `ESC T 1`, "AB" LF FF "C": the page is in rows 108 to 207, the C at row 168).
64. Page mode without ESC W since ESC L prints nothing: the page has 0 by 0 dots until an area is set (`ESC L` "AB" FF). After FF a second page without a new ESC W prints nothing either.
65. The reference dot density for graphics (GS ( L function 49) also changes the thickness of strike-through lines: `points_to_pixels` uses it (Spec.strikeDots).
66. Page mode: ESC $ and GS $ in a turned print direction move along the wrong side of the page: the position is kept as seen in the print direction, but these commands turn it again (C84_what_is_done, C84_deviations).
67. Page mode: HT compares the tab stops, counted from the left edge of the page, with the position and then counts the stop found from the left edge of the print area (C84_tab_misplaced).
68. Page mode: with ESC T 2 and ESC T 3 an area that is not in the middle of the page is misplaced; in turned directions an area beyond the page does not make the page large enough (C84_deviations).
69. ESC W and ESC T in standard mode are not remembered for page mode, but move the position of page mode to the start of the old area (C84_deviations). ESC T with parameters other than 0-3 and 48-51 selects direction 0.
70. ESC L in page mode begins a new page, and what was not printed is lost; ESC L in standard mode goes on at the position of the page before.
71. HTML: after a form feed in standard mode the next document shows all rows of the document before again (C86_shown_again); in the image output the paper is gone instead (finding 16).
72. HTML: bars and QR modules are black whatever the colour of the text (`ESC r`).
73. Text stretched by different factors (for example 3 times as wide and 7 times as high) shows some columns of its glyphs one dot off: `s * (n / m)` in f32 is a little less than the whole number it should be (C87_fitted_off_by_one).
74. HTML: a document that ends in page mode loses the space for what was fed below the last row: the padding is computed from the position on the page (`ESC J 100`, `ESC L`; C86_space_lost). The image output has it.
75. A renderer that is used again goes on where the last job ended: position, styles, stored graphics and page mode stay, although the paper is new (an empty job gives 108 rows, a second one 156: C88_position_stays). `ESC @` helps except after a job that ends in page mode, which `ESC @` does not leave (C88_page_mode_stays). On web pages the space at the top of a later job grows with what was printed before, even after `ESC @` (C88_web_space_stays).
76. Debug profiles: outlining an image or a page without dots panics (`draw_border` computes `height - 1` and `width - 1`): `GS v 0` with no rows (C89_image_panics), a printed page of width or height 0 (C89_page_panics). Without debug profile both are rendered.
77. Printing a stored graphic under a key that is not defined, an empty print buffer, or a 2D symbol other than a QR code prints nothing and reports nothing (C90_silent), while a missing QR code is reported.
78. The messages of the image renderer (`errors` of the two canvases) are never cleared: with a renderer that is used again, or a job with several documents, the errors of a document are returned again with every later one (C90_stay).
79. `image_from_column_bytes_multi_color` (public, not used by the crate) cannot decode anything: it wants one byte more per layer than the documentation says, counts one layer too many (`0..=num_colors`) and cuts `layer_start..bytes_per_layer - 1`, which panics for the second layer (C91_never_a_picture).
80. GS ( G takes four bytes, whatever number of parameters it announces (C92_otherwise).
81. The renderer is never told of ESC p (`DeviceCommand::Pulse` exists, nothing makes it) nor of GS I and the other requests (`Transmit`); ESC S leaves page mode without `EndPageMode`, because its kind is `Context` and device commands of that kind are not asked for (C93_deviations).
82. GS V 65/66 n (feed, then cut) announces the cut first and the feed after it (C93_deviations).
83. International character sets: 59 characters in 12 sets are not those of the documentation; for example in the German set the bytes from 60h on are shifted by one place, so that `süß` ends in the wrong letters (C94_national_partial is exact about them, C94_deviations).
84. PC850 has box corners for the cent and yen signs (BDh, BEh) and a hyphen for the soft hyphen; eight characters of PC865 are those of PC850 (C94_pages_partial).
85. Code pages without a table, such as WPC1252 (16) and PC858 (19), are read as PC437 without any message; the euro sign comes out as `Ç` or a box corner (C94_missing).
86. The log is written before a command is carried out, so `Set Code Table to 0. Default (Codepage 437)` is the line of ESC t 2; the line of GS ( H is empty (its handler asks for a sub-command and has none); carriage returns are called `Line Feed`; the functions that store the data of MaxiCode, GS1 DataBar, composite, Aztec and DataMatrix symbols are all called `PDF417 Store the Code2D data`; with code page 255 (UTF-8) the log tells code page 437 (C95_deviations).
