# Formal model of jung-kurt/gofpdf in Lean 4 — design

Source: `/repo` (read as text; never built or run). Model and proofs: `lean/Verif`. List of properties: `properties.jsonl`;
what is proved of each: `MANIFEST.json` and the table below; attempts to break the theorems: `seeded/LOG.jsonl`.

## Layout

* `Verif/Spec/*`  – small, independent specifications: what a PDF reader does with a literal string, a number, a content
  stream, a cross-reference table, a page dictionary; UTF-8 and UTF-16; RC4 and the standard security handler; SVG paths;
  first-fit wrapping; replacing one string by another; PNG chunks and filters; TrueType tables; /W arrays; …
  No file of `Spec` mentions the model (`SvgRel` relates the library's data types to SVG).
* `Verif/Model/*` – the model of the Go code, function by function, each definition citing file and lines in `/repo`;
  simplifications are marked SIMPLIFICATION in those comments.
* `Verif/Proof/*` – lemmas and invariants.
* `Verif/Props/*` – the property theorems (those named in `MANIFEST.json`), each with `example`s showing concrete,
  non-trivial documents that meet the hypotheses. Where the code violates the property as a user would expect it, the
  violation is itself a theorem with a concrete witness (names ending in `_false`), beside the theorem for the part that holds.

## The model

The document is a state (`Fpdf`, the fields of `type Fpdf struct`). One constructor of `Op` stands for each API call (calls that only abbreviate
others share its constructor), `Fpdf.exec E cb op f` is its effect. `Reach E G f g` says that some finite
sequence of calls allowed by the discipline `G` leads from `f` to `g`; the user's header, footer and accept-page-break
functions are part of each step and are arbitrary functions whose effect is itself such a sequence. So "for every
program" in a property is `∀ g, Reach E G f g → …`, by induction on `Reach`, without bound on its length.

Disciplines used (all in `Proof`/`Props`, each decidable on concrete programs): `anyOp` (anything), `noClose`
(the document is not closed), `pagesFirst` (a page is begun before drawing, not closed; this is how the library must be used),
`inOrder` (the last page is the selected one), `tidy` (C11), `without bad` / `pagesWithout bad` (none of the named calls).
Where a discipline is needed, a `_false` theorem shows what happens outside it.

The file is what `Output` writes: the writer (`enddoc` and everything below it) is modelled down to the byte, and theorems "about
the file" speak of those bytes (`Written`, `Printed`): every object with its number, offset and text.

External functions (`Ext`): MD5, SHA-1, deflate, trigonometric functions, digests of fonts and images, font subsetting, clock, random
owner password, font files and — important — the order in which Go ranges over each map (`ord`, any permutation of the keys at each place).
Theorems quantify over all of them; assumptions (e.g. an inflate that undoes deflate) are hypotheses of the theorems that need them.

## Conventions and simplifications

* Bytes are `UInt8`, Go strings are byte strings (`List UInt8`), runes are `Nat`.
* `float64` is idealised as exact rationals. `%.Nf` is modelled on rationals (rounding half to even as Go does on the exact binary
  value). Rounding inside float64 arithmetic, NaN and infinities are not modelled.
* `int` is unbounded except where the code converts to a fixed width (font tables, PNG, permissions), which is modelled.
* Go maps are association lists; ranging over a map goes through `ord`.
* Errors are the `err` field; run-time panics are `none` or the `panicked` flag.
* Pointers to images, attachments and templates are numbers into a heap, so sharing is modelled; `putstream`'s encryption in place is not
  (the buffers it overwrites are not read again, except when a document object is used after `Output`).
* Upper and lower case are ASCII.
* encoding/gob is taken to give back what it was given (C33); encoding/json of font definitions, decoding of JPEG and GIF, and the reading of
  TrueType files enter as the values they produce.

## What is modelled

`fpdf.go` (all of it except: `SetFontLocation`, `SetFontLoader` and file access, which appear as parameters; `putImportedTemplates`/gofpdi objects, which are empty
unless `contrib/gofpdi` is used; the conveniences `String`, `GetConversionRatio` etc. only where a theorem mentions them), `fpdftrans.go`, `layer.go`, `spotcolor.go`, `subwrite.go`, `attachments.go`, `protect.go`,
`template.go`, `template_impl.go`, `splittext.go`, `grid.go`, `label.go`, `compare.go`, `htmlbasic.go`, `svgbasic.go` (path parsing; not the XML decoder), `svgwrite.go`,
`png.go`, `util.go` (escaping, UTF-16, code pages, PHP-like arrays), and of `utf8fontfile.go` the writing side: check sums, cmap, directory.

Not modelled: `font.go` (the `makefont` tool), `ttfparser.go`, the reading side of `utf8fontfile.go` (glyph closure, metrics), `contrib/*`, `list/`, `internal/`, `makefont/`,
JPEG/GIF decoding, the XML decoder of `SVGBasicParse`, Go's runtime, file I/O, the contents of deflated data (deflate is a parameter).

## Trusted base

* Lean's kernel (4.33.0) and its implementation of `Nat`/`String` literals; `decide +kernel` (used for examples, refutations and finite facts such
  as "for each of the 256 bytes") is kernel reduction, no compiled code is trusted.
* Axioms: every theorem depends on at most `propext`, `Classical.choice` and `Quot.sound`. No axiom is added; there is no unfinished proof,
  no `native_decide`, no `bv_decide`.
* That the model is faithful to the code: it was transcribed by reading `/repo`; this is not machine-checked.
* That the specifications in `Spec` say what the standards say.

## Plan and state of each property

| property | modelled | proof | status | theorems |
|---|---|---|---|---|
| C01 Literal strings survive escaping | `escape`, `textstring`, the escaping of cells | structural induction; the four sequential replacements are fused; the specification is a reader of literal strings | proved | `C01_textstring_roundtrip`, `C01_cell_literal`, `C01_cell_roundtrip`, `C01_cell_cr_false` |
| C02 UTF-8 text is stored as equivalent UTF-16BE | `utf8toutf16` | induction over code points against RFC 3629 / RFC 2781; characters outside the basic plane refuted | proved | `C02_utf16_bmp`, `C02_utf16_length`, `C02_astral_false`, `C02_truncated_panics` |
| C03 Shown text cannot inject page operators | `Text`, `CellFormat`, `MultiCell`, `Write` down to the bytes | every piece of a page is shown to scan as whole instructions (`Frag`), strings by C01 | proved | `C03_text`, `C03_cell`, `C03_utf8` |
| C04 Encryption is reversible with the document key | `protect.go`: `rc4`, `objectKey` | XOR involution; RC4 itself is modelled | proved | `C04_rc4_involutive`, `C04_first_in_object_decrypts` |
| C05 Passwords open the protected document | `setProtection`, `oValueGen`, `uValueGen` | equational, against the algorithms of the standard | proved | `C05_passwords_authenticate`, `C05_permissions` |
| C06 Every string in a protected document is decryptable | the cached cipher of `protectType` | state machine over encrypted strings; refuted for two strings in one object | proved | `C06_one_per_object`, `C06_same_object_continues`, `C06_second_string_false` |
| C07 Cross-reference table points at the objects | every `put*` function, `enddoc` | the writer appends objects (`W f g objs`), offsets are lengths of prefixes; composed over all stages | proved | `C07_wellformed`, `C07_any_program`, `C07_header_first_false` |
| C08 Stream lengths are exact | `putstream` and all its users | same | proved | `C08_stream_lengths` |
| C09 Errors latch | all operations | one lemma per operation, induction over programs | proved | `C09_error_latches`, `C09_first_error_kept`, `C09_setError`, `C09_replaced_false` |
| C10 Nothing is output when an error is set | `Output`, `Close` | case analysis; refutation when `Close` fails inside `Output` | proved | `C10_no_output_after_error`, `C10_no_error_complete`, `C10_output_with_error_false` |
| C11 Graphics state nesting is balanced | all drawing operations | every operation appends instructions of known nesting; invariant over programs (`tidy`) | proved | `C11_balanced`, `C11_roundedRect_false`, `C11_page_in_clip_false` |
| C12 Layer sections are balanced on every page | layers | as C11, with the nesting of marked content | proved | `C12_layers`, `C11_balanced`, `C12_setPage_false` |
| C13 Every page is emitted, in order | `AddPageFormat`, `SetPage`, `putpages` | invariant on the list of pages; exact page tree in the file | proved | `C13_every_page`, `C13_contents_kept`, `C13_draws_on_current_page`, `C13_setPage_false` |
| C14 AddPage preserves the graphics settings | `AddPageFormat`, `beginpage` | equational over all settings, then over programs | proved | `C14_addPage`, `C14_autoBreak`, `C14_noFont`, `C14_getDrawColor_false`, `C14_lineCap_false` |
| C15 Header and footer run exactly once per page | `AddPageFormat`, `Close`, with a ghost log of call-back calls | invariant on the log | proved | `C15_calls`, `C15_setPage_false` |
| C16 Page geometry is consistent | `beginpage`, `putpages` | invariant relating recorded sizes to the page dictionaries | proved | `C16_page_size`, `C16_media_box`, `C16_setPage_false`, `C16_PageSize_false` |
| C17 Text is painted in the text colour | colour setters, `AddPageFormat`, `Text`, `CellFormat`, and all that writes on pages | as C68, plus: the flag of the text colour is right after `SetTextColor`; the marks of the line written are read off its instructions | proved | `C17_text`, `C17_cell`, `C17_set`, `C17_spot_false` |
| C18 Colour components are clamped and read back | colour setters and getters | clamping arithmetic; reader of the operators | proved | `C18_readback`, `C18_kept`, `C18_operator` |
| C19 Spot colours are registered once and consistently | `AddSpotColor` and users | registry invariant; exact separation colour space in the file | proved | `C19_register`, `C19_twice`, `C19_unknown`, `C19_numbers`, `C19_select`, `C19_file` |
| C20 Every resource used is defined | all registries, `putresources` | invariant: names used ⊆ names registered; exact dictionary | proved | `C20_resources` |
| C21 Transparency settings are validated and deduplicated | `SetAlpha`, `putBlendModes` | registry invariant, exact dictionary in the file | proved | `C21_valid`, `C21_get`, `C21_refused`, `C21_kept`, `C21_shared`, `C21_file`, `C21_page_false`, `C21_empty_false` |
| C22 The header version covers the features used | version handling, `putheader` | monotone version, header of the file | proved | `C22_layers`, `C22_alpha`, `C22_image`, `C22_twoPage_false` |
| C23 Bookmarks form the requested outline | `Bookmark`, `putbookmarks` | loop invariant of the `lru` loop against a tree specification | proved | `C23_bookmark_recorded`, `C23_bookmarks_kept`, `C23_only_bookmark`, `C23_outline`, `C23_in_catalog`, `C23_level_skipped_false` |
| C24 Aliases are fully replaced | `replaceAliases`, `strings.Replace` | induction; independence of the map order where true, refuted where false | proved | `C24_pages`, `C24_unset`, `C24_gone`, `C24_order`, `C24_order_count`, `C24_order_false`, `C24_escaped_false` |
| C25 SplitLines wraps without losing text | `SplitLines` | loop invariant against first-fit wrapping | proved | `C25_wrapped`, `C25_content`, `C25_fits`, `C25_loop` |
| C26 SplitText wraps without losing text | `SplitText` | same | proved | `C26_wrapped`, `C26_content`, `C25_loop`, `C26_chinese_false` |
| C27 MultiCell prints all of its text | `MultiCell` | same, and the cells it draws | proved | `C27_cells`, `C27_content`, `C27_range`, `C27_cursor` |
| C28 Cells break pages exactly when they would overflow | `CellFormat`, flowing images | case analysis of the page-break test | proved | `C28_cell`, `C28_header_footer`, `C28_fits`, `C40_image` |
| C29 The cursor moves as documented | `CellFormat`, `Ln`, `SetX/Y` | case analysis | proved | `C29_cell`, `C29_ln`, `C29_cell_ln`, `C29_set`, `C40_image` |
| C30 PNG alpha separation is lossless | `parsepngstream`, alpha separation | induction on rows; the predictor is specified separately | proved | `C30_alpha` |
| C31 PNG chunks are all read | `parsepngstream` | induction on chunks | proved | `C31_read`, `C31_empty_false`, `C31_damaged_false` |
| C32 Templates are written in dependency order | `sortTemplates`, `putTemplates` | induction on the dependency tree | proved | `C32_order`, `C32_templates` |
| C33 Template serialisation round-trips | `GobEncode`/`GobDecode` of templates | structural recursion; encoding/gob assumed to give values back | proved | `C33_roundTrip`, `C33_names`, `C33_images`, `C33_templates`, `C33_made`, `C33_made_intact`, `C33_changed_false`, `C33_twins_false` |
| C34 Attachments are embedded once and referenced correctly | `attachments.go` | invariant; exact objects in the file | proved | `C34_listed`, `C34_only`, `C34_annotations`, `C34_reused_false` |
| C35 PDF comparison detects differences | `compare.go` | exact loop characterisation | proved | `C35_compare_exact`, `C35_equal_accepted`, `C35_compare_usual`, `C35_length_false`, `C35_last_byte_false` |
| C36 SVG relative paths are resolved correctly | `svgbasic.go`, `svgwrite.go`, on the document machine | simulation against the SVG semantics; each stroke is read back from the page; the curve of operator `v` is compared with the quadratic one | proved | `C36_absolutize`, `C36_svg_end_to_end`, `C36_page`, `C36_incomplete_rejected`, `C36_after_close_false`, `C36_quad_false`, `C36_quad_as_cubic` |
| C37 HTML tokenising preserves text | `HTMLBasicTokenize` | induction | proved | `C37_tokenize_accounts` |
| C38 Geometric transformations do what they say | `fpdftrans.go` | rational arithmetic, read back from the page | proved | `C38_scale`, `C38_translate`, `C38_rotate`, `C38_skew`, `C38_mirror`, `C38_mirrorLine`, `C38_context` |
| C39 Grid scaling, tick marks, lines and plots are sound | `grid.go` | rational arithmetic, induction over tick marks | proved | `C39_contain`, `C39_extent`, `C39_distance`, `C39_label`, `C39_label_false`, `C39_lines`, `C39_plot` |
| C40 Images keep their aspect ratio | `imageOut`, `Image` | rational arithmetic | proved | `C40_size`, `C40_aspect`, `C40_image` |
| C41 CID width arrays give every used glyph's width | `generateCIDFontMap` | loop invariants against a reader of /W arrays | proved | `C41_array`, `C41_widths`, `C41_missing_false` |
| C42 Font table checksums are right | checksums of `utf8fontfile.go` | arithmetic modulo 2^32 | proved | `C42_tables`, `C42_adjustment`, `C42_adjustment_false` |
| C43 The subset font's character map is right | the cmap table of subset fonts | arithmetic, induction | proved | `C43_cmap`, `C43_length_false` |
| C44 Font table directories are consistent | the table directory of subset fonts | induction | proved | `C44_directory` |
| C45 Sorted catalogs make output reproducible | every place where a map is ranged over | permutation invariance of sorting; the writer as a function of sorted keys | proved | `C45_reproducible`, `C45_drawing`, `C45_reach`, `C45_spots_false`, `C45_images_false`, `C45_boxes_false`, `C45_unsorted_false` |
| C46 Images are written once and referenced correctly | image registration and `putimages` | registry invariant; exact image objects | proved | `C46_once`, `C46_images`, `C46_template_false` |
| C47 Code page translation | `UnicodeTranslator` | induction over lines and runes | proved | `C47_translates`, `C47_ascii`, `C47_bad_last`, `C47_report_false` |
| C48 Temporary settings are restored | `SubWrite`, margins, header mode | equational, then over programs | proved | `C48_margins`, `C48_subWrite` |
| C49 Fonts are selected by normalised family and style | `SetFont`, font keys | invariant over programs | proved | `C49_same`, `C49_setFont` |
| C50 Links and bookmarks lead to their page | links and bookmarks | object numbers of pages; refuted with attachments | proved | `C50_links_lead`, `C50_bookmarks_lead`, `C50_attachment_false` |
| C51 Write flows all of its text | `Write` | loop invariant over lines | proved | `C51_run`, `C51_content`, `C51_fits`, `C51_blank`, `C51_margin_false` |
| C52 Unit conversions are inverse | unit conversion, paths | rational arithmetic; pages are read back | proved | `C52_inverse`, `C52_line`, `C52_rect`, `C52_moveTo`, `C52_lineTo`, `C52_curveTo`, `C52_curveCubicTo`, `C52_curve`, `C52_curveCubic`, `C52_polygon`, `C52_clipRect` |
| C53 Path painting operators | `fillDrawOp` | case analysis | proved | `C53_drawPath`, `C52_rect`, `C52_curve`, `C52_curveCubic`, `C52_polygon`, `C53_style_false` |
| C54 Numbers are written exactly to the declared precision | number formatting | arithmetic | proved | `C54_fmtF_reads_close`, `C54_fmtF_ties`, `C54_fmtF_plain`, `C54_natDec_reads`, `C54_zeroPad_reads` |
| C55 Basic HTML is written with the right text, styles and links | `HTMLBasicType.Write` | induction over tokens | proved | `C55_html_styles`, `C55_html_text`, `C55_html_links`, `C55_link_scope_false` |
| C56 Document properties reach the information dictionary | document properties, `putinfo` | exact information dictionary | proved | `C56_file`, `C56_default`, `C56_protected_producer`, `C56_protected_false` |
| C57 The display mode is what was asked for | `SetDisplayMode`, `putcatalog` | exact catalog | proved | `C57_checked`, `C57_layout`, `C57_zoom`, `C57_attachment_false` |
| C58 Layers are listed with their names and visibility | `layerPutCatalog` | exact catalog | proved | `C58_layer`, `C58_only`, `C58_pane`, `C58_pane_false` |
| C59 The document script is the one last set | `SetJavascript`, `putjavascript` | exact objects | proved | `C59_script`, `C59_none` |
| C60 XMP metadata is in the file | `SetXmpMetadata`, `putxmp` | exact object | proved | `C60_stream`, `C60_unreferenced` |
| C61 A protected file can be opened with the passwords, by anyone who reads the file | `putEncrypt`, trailer | C05 carried to the bytes of the file | proved | `C61_protected`, `C61_unprotected` |
| C62 Drawing a grid gives back the drawing attributes | `Grid.Grid` | the grid as a program over the API | proved | `C62_program`, `C62_restored`, `C62_break_false`, `C62_spot_false` |
| C63 Pages of a template | `FromPage`, `FromPages` | list reasoning | proved | `C63_fromPage`, `C63_fromPages` |
| C64 Gradients are painted as asked | `LinearGradient`, `RadialGradient`, `putGradients` | exact shading and function dictionaries, and the page operators | proved | `C64_gradient` |
| C65 Links cover the area asked for | `Link`, `LinkString`, links of cells, `putpages` | invariant on the recorded links, exact annotation text | proved | `C65_uri`, `C65_internal`, `C65_cell` |
| C66 Page boxes apply to their page and the pages after it | `SetPageBox`, `SetPageBoxRec`, `beginpage`, the page dictionary of `putpages` | induction over programs that the box of page i is kept until set again (`LastRel`), then the exact text of the page object | proved | `C66_box`, `C66_only`, `C66_refused` |
| C67 Justified lines fill the cell | the loops of `MultiCell`, `CellFormat` | invariant of the walk over a line (width and number of blanks up to the last blank), induction over the lines | proved | `C67_spread`, `C67_exact_false`, `C67_utf8` |
| C68 Shapes are painted with the colours and line width set last | colour and line width setters, `AddPageFormat`, all that writes on pages; a reader that runs page contents with its graphics state stack (`Spec/Attrs.lean`, `Spec/Marks.lean`) | invariant over histories: the attributes of the reader (and the saved ones as deep as the open regions) are those remembered; induction over calls, call-backs as relations | proved | `C68_fill`, `C68_draw`, `C68_spot`, `C68_width`, `C68_shape`, `C68_rect`, `C68_clip_false`, `C68_setPage_false` |
| C69 Templates are shown where asked for | `UseTemplateScaled`, `putTemplates`, `beginpage` | the page size in effect is an invariant of histories (as C16); the matrix written composed with the coordinates of the template page is computed exactly; the form objects by the writer theorems of C32 | proved | `C69_place`, `C69_scaled`, `C69_file`, `C69_position_false`, `C69_landscape_false` |
| C70 Line styles apply at once and on every later page | `SetLineCapStyle`, `SetLineJoinStyle`, `SetDashPattern`, the start of `AddPageFormat` | the styles remembered are kept by all other calls (induction over histories, call-backs as relations); what is written is read back by the lexer of `Spec/Lex.lean`; page contents only grow | proved | `C70_set`, `C70_page`, `C70_header_false` |
| C71 Curved shapes and clipping regions are the ones asked for | `arc` with its segment loop, `roundedRectPath`, `clipArc`, `ClipEllipse`, `ClipPolygon`, `ClipText`, `Beziergon`; trigonometry as parameters | induction over the segments / points; what is written is read back by the lexer of `Spec/Lex.lean` and compared with the points computed in the coordinates of the document | proved | `C71_arc`, `C71_arc_rotated`, `C71_arcTo`, `C71_arcTo_rotated_false`, `C71_roundedRect`, `C71_beziergon`, `C71_clipRoundedRect`, `C71_clipEllipse`, `C71_clipPolygon`, `C71_clipText` |
| C72 TtfParse reads the widths and the character map of a font | the directory, `ParseHead` (magic number), `ParseHmtx`, `ParseCmap` and the read functions of `ttfparser.go`, on the bytes of the file | induction over the loops; compared with the look-up rules of the OpenType specification in `Spec/Ttf.lean` | proved | `C72_file`, `C72_widths`, `C72_widths_false`, `C72_chars`, `C72_accepts`, `C72_refuses`, `C72_chars_false` |

Every property of the list could be expressed in the model.

## How file-level theorems are proved

1. Each operation appends whole instructions to the current page (`Emits`, `DrawEmits`, `CellEmits`, …, summed up in `OpEmits`, `Turn`, `Grow`).
2. Each operation changes only its own part of the state (`Foot`: `foot op f` computes the part, `exec_foot` proves it); relations on the
   state are lifted to programs by `DataRel`, `FineRel`, `LensRel`, `Part` (`Doc`, `Settings`, `Colors`).
3. Each `put*` function appends objects (`Writes`, `WriterObjs`), the stages of `enddoc` are composed in `Assemble`/`Stages`/`Final`, the result is `Written` (exact
   texts of pages, catalog, information dictionary, resources, trailer).
4. A property then combines: what the call left in the state (2) – what the writer makes of it (3) – what a reader (`Spec`) reads there.

## Findings (places where the code does not do what a user would expect)

Each is a theorem: carriage returns in cells (C01_cell_cr_false), characters beyond the basic plane (C02_astral_false), second string of an encrypted object
(C06_second_string_false, C56_protected_false), bytes drawn before the first page (C07_header_first_false), overwritten errors (C09_replaced_false), output after
a failed Close (C10_output_with_error_false), RoundedRect without Q (C11_roundedRect_false), clip across pages (C11_page_in_clip_false), layer across SetPage
(C12_setPage_false), pages lost after SetPage (C13_setPage_false), line cap and dash not restored (C14_lineCap_false), alpha forgotten on a new page (C21_page_false) and
the empty blend mode (C21_empty_false), spot text colour ignored (C17_spot_false), colours set inside a clipping region (C68_clip_false), version raised after the header (C22_twoPage_false), skipped bookmark levels
(C23_level_skipped_false), alias order and escaped aliases (C24_order_false, C24_escaped_false), Chinese characters lost at breaks (C26_chinese_false), PNG chunks after
an empty one and damaged files (C31_empty_false, C31_damaged_false), template serialisation (C33_changed_false, C33_twins_false), reused attachments
(C34_reused_false), CompareBytes lengths and last byte (C35_*_false), SVG after a close (C36_after_close_false), grid labels and break mode (C39_label_false, C62_break_false),
missing width (C41_missing_false), check sum adjustment (C42_adjustment_false), cmap length (C43_length_false), unsorted output despite SetCatalogSort (C45_*_false), images in
templates (C46_template_false), code page errors forgotten (C47_report_false), destinations with attachments (C50_attachment_false, C57_attachment_false), Write past the margin
(C51_margin_false), unknown styles copied into the page (C53_style_false), link text in HTML (C55_link_scope_false), two /PageMode entries (C58_pane_false),
metadata not referenced (C60_unreferenced).
