# The model against the program's own outputs

The repository contains inputs and the outputs the real program made of them: `/repo/sample_files/in/*`, `/repo/sample_files/out/html/*.html`,
`/repo/sample_files/out/img/*.png`. The model is executable, so it was compiled and run on the inputs, and its outputs were compared with these
files. This is testing, not proof: it is evidence that the definitions under `lean/Verif/Model` are the program's, not part of any theorem.

How: a scratch Lake project with copies of `Verif/Model`, `Verif/Spec/Trace.lean` and `Run.lean.txt` as its main program, with
`canvas_speed.diff.txt` applied (arrays for lists in `putLoop` and the three rotations, for speed only). What the model takes as parameters
comes from outside: the modules of barcodes and QR codes are read off the golden SVGs (`oracle.py`; `c39.py` for the one in page mode); pictures are
compared as decoded PNGs (`cmp.py`); glyphs are read off the golden images at cells whose character is plain and drawn once (`img.py`), the other
cells are not compared; in page mode no cell is compared (`pm2.py`, `pmhtml.py`: the cells are where the model's output changes if every glyph is solid).

## Web pages (14 of 14)

| input | result |
|---|---|
| test_receipt_1, test_receipt_2, test_receipt_3, retail, typography, issuing_receipts, receipt_with_barcode, print_graphics, barcodes, gs_images_raster, gs_images_column | equal byte for byte (CR LF as LF; pictures dot for dot) |
| discount | equal; in the picture of the page (512 x 415) equal outside the 53028 dots of character cells |
| page_mode | equal; in the picture of the page (506 x 750) equal outside the 47106 dots of character cells, except 9 dots in the row just below a cell (glyphs that reach out of their cell) |
| page_mode_debug | equal; in the picture of the page (550 x 750) equal outside the 133104 dots of character cells |

## Images

| input | result |
|---|---|
| test_receipt_3, print_graphics, gs_images_raster, gs_images_column | equal in every dot |
| test_receipt_1 | equal in every dot but 40 of 342 cells (glyph seen nowhere plain) |
| test_receipt_2 | equal in every dot but 40 of 517 cells |
| receipt_with_barcode | equal in every dot but 11 of 161 cells |
| issuing_receipts | equal in every dot but 172 of 706 cells (mostly text drawn twice, see the finding about lines printed again) |
| retail | equal in every dot but 37 of 586 cells |
| barcodes | equal in every dot outside the cells of characters (4084 rows) |
| page_mode, page_mode_debug | equal in every dot outside character cells (9 dots as above) |

In the cells that are compared, a glyph is the same wherever its character appears, in every sample.
