{
 "claims": [
  {
   "property": "C01",
   "status": "proved",
   "theorems": [
    "Verif.Props.C01_textstring_roundtrip",
    "Verif.Props.C01_cell_literal",
    "Verif.Props.C01_cell_roundtrip",
    "Verif.Props.C01_cell_cr_false"
   ],
   "note": "Strings written through escape/textstring read back exactly. The CellFormat path for non-UTF-8 fonts leaves CR unescaped: exact characterisation (EOL-normalised) and refutation of the verbatim claim are given."
  },
  {
   "property": "C02",
   "status": "proved",
   "theorems": [
    "Verif.Props.C02_utf16_bmp",
    "Verif.Props.C02_utf16_length",
    "Verif.Props.C02_astral_false",
    "Verif.Props.C02_truncated_panics"
   ],
   "note": "Proved for all texts in the Basic Multilingual Plane. Code points beyond it are mangled by the code (refuted), and truncated UTF-8 input panics."
  },
  {
   "property": "C04",
   "status": "proved",
   "theorems": [
    "Verif.Props.C04_rc4_involutive",
    "Verif.Props.C04_first_in_object_decrypts"
   ],
   "note": "MD5 is an arbitrary function."
  },
  {
   "property": "C05",
   "status": "proved",
   "theorems": [
    "Verif.Props.C05_passwords_authenticate",
    "Verif.Props.C05_permissions"
   ],
   "note": "For passwords of any length (truncated at 32 bytes as the standard says); MD5 arbitrary."
  },
  {
   "property": "C06",
   "status": "proved",
   "theorems": [
    "Verif.Props.C06_one_per_object",
    "Verif.Props.C06_same_object_continues",
    "Verif.Props.C06_second_string_false"
   ],
   "note": "Proved for documents in which no two strings/streams of the same object follow each other; refuted in general: the key stream is not restarted for the second string of an object."
  },
  {
   "property": "C35",
   "status": "proved",
   "theorems": [
    "Verif.Props.C35_compare_exact",
    "Verif.Props.C35_equal_accepted",
    "Verif.Props.C35_compare_usual",
    "Verif.Props.C35_length_false",
    "Verif.Props.C35_last_byte_false"
   ],
   "note": "Exact characterisation for all inputs. 'nil iff equal' is false: the length is never compared and the last byte of a partial block is skipped."
  },
  {
   "property": "C36",
   "status": "proved",
   "theorems": [
    "Verif.Props.C36_absolutize",
    "Verif.Props.C36_svg_end_to_end",
    "Verif.Props.C36_page",
    "Verif.Props.C36_incomplete_rejected",
    "Verif.Props.C36_after_close_false",
    "Verif.Props.C36_quad_false",
    "Verif.Props.C36_quad_as_cubic"
   ],
   "note": "Proved for every path in which no drawing command follows a close-path without an absolute move; refuted there. Refuted for quadratic curves: they are written as the operand of the PDF operator v, which draws another curve."
  },
  {
   "property": "C37",
   "status": "proved",
   "theorems": [
    "Verif.Props.C37_tokenize_accounts"
   ],
   "note": "Attribute parsing and lower-casing are function parameters."
  },
  {
   "property": "C54",
   "status": "proved",
   "theorems": [
    "Verif.Props.C54_fmtF_reads_close",
    "Verif.Props.C54_fmtF_ties",
    "Verif.Props.C54_fmtF_plain",
    "Verif.Props.C54_natDec_reads",
    "Verif.Props.C54_zeroPad_reads"
   ],
   "note": "Values are exact rationals (float64 without NaN/Inf)."
  },
  {
   "property": "C55",
   "status": "proved",
   "theorems": [
    "Verif.Props.C55_html_styles",
    "Verif.Props.C55_html_text",
    "Verif.Props.C55_html_links",
    "Verif.Props.C55_link_scope_false"
   ],
   "note": "Text and styles proved for all token sequences; 'all text within <a> is linked' is refuted."
  },
  {
   "property": "C09",
   "status": "proved",
   "theorems": [
    "Verif.Props.C09_error_latches",
    "Verif.Props.C09_first_error_kept",
    "Verif.Props.C09_setError",
    "Verif.Props.C09_replaced_false"
   ],
   "note": "Once an error is set it stays set until ClearError, for every operation. 'The first error is kept' is proved for all operations except the seven named ones, and refuted for those."
  },
  {
   "property": "C07",
   "status": "proved",
   "theorems": [
    "Verif.Props.C07_wellformed",
    "Verif.Props.C07_any_program",
    "Verif.Props.C07_header_first_false"
   ],
   "note": "Proved for every program that starts a page before drawing and for files below 10^10 bytes; for programs that draw before the first page the bytes drawn precede the header (refuted there), the rest of the file is still as claimed."
  },
  {
   "property": "C08",
   "status": "proved",
   "theorems": [
    "Verif.Props.C08_stream_lengths"
   ],
   "note": "For every document, compressed, protected or plain."
  },
  {
   "property": "C10",
   "status": "proved",
   "theorems": [
    "Verif.Props.C10_no_output_after_error",
    "Verif.Props.C10_no_error_complete",
    "Verif.Props.C10_output_with_error_false"
   ],
   "note": "Nothing is written when an error is already set; without error one complete file is written. When Close itself fails inside Output the half-built buffer is written: refuted."
  },
  {
   "property": "C13",
   "status": "proved",
   "theorems": [
    "Verif.Props.C13_every_page",
    "Verif.Props.C13_contents_kept",
    "Verif.Props.C13_draws_on_current_page",
    "Verif.Props.C13_setPage_false"
   ],
   "note": "Proved for programs that do not leave an earlier page selected with SetPage; refuted otherwise."
  },
  {
   "property": "C23",
   "status": "proved",
   "theorems": [
    "Verif.Props.C23_bookmark_recorded",
    "Verif.Props.C23_bookmarks_kept",
    "Verif.Props.C23_only_bookmark",
    "Verif.Props.C23_outline",
    "Verif.Props.C23_in_catalog",
    "Verif.Props.C23_level_skipped_false"
   ],
   "note": "Proved for every document whose levels start at 0 and never skip one on the way down; refuted otherwise (a first bookmark at level 1 is its own parent)."
  },
  {
   "property": "C50",
   "status": "proved",
   "theorems": [
    "Verif.Props.C50_links_lead",
    "Verif.Props.C50_bookmarks_lead",
    "Verif.Props.C50_attachment_false"
   ],
   "note": "Proved for documents without attachments; refuted with attachments, whose objects come before the pages."
  },
  {
   "property": "C11",
   "status": "proved",
   "theorems": [
    "Verif.Props.C11_balanced",
    "Verif.Props.C11_roundedRect_false",
    "Verif.Props.C11_page_in_clip_false"
   ],
   "note": "Proved for every program under the discipline `tidy` (documented style strings, no RoundedRect/RawWrite, no page begun inside a clip or transformation) without aliases; refuted for RoundedRect and for pages added inside a clip."
  },
  {
   "property": "C12",
   "status": "proved",
   "theorems": [
    "Verif.Props.C12_layers",
    "Verif.Props.C11_balanced",
    "Verif.Props.C12_setPage_false"
   ],
   "note": "Proved for every program under the discipline `tidy`; refuted when SetPage is used while a layer is open."
  },
  {
   "property": "C20",
   "status": "proved",
   "theorems": [
    "Verif.Props.C20_resources"
   ],
   "note": "For the discipline `tidy` of C11 without aliases. The template part needs that templates with equal pointers are equal (true of pointers)."
  },
  {
   "property": "C16",
   "status": "proved",
   "theorems": [
    "Verif.Props.C16_page_size",
    "Verif.Props.C16_media_box",
    "Verif.Props.C16_setPage_false",
    "Verif.Props.C16_PageSize_false"
   ],
   "note": "Proved for programs that add pages in order; refuted for SetPage and PageSize(n) on landscape documents."
  },
  {
   "property": "C14",
   "status": "proved",
   "theorems": [
    "Verif.Props.C14_addPage",
    "Verif.Props.C14_autoBreak",
    "Verif.Props.C14_noFont",
    "Verif.Props.C14_getDrawColor_false",
    "Verif.Props.C14_lineCap_false"
   ],
   "note": "Proved for programs that do not close the document, with a font of non-zero size selected (and, without a font, for the other settings). Refuted for the RGB value reported when a spot colour is in use and the header sets it again, and for line cap style and dash pattern, which are not among the settings claimed."
  },
  {
   "property": "C18",
   "status": "proved",
   "theorems": [
    "Verif.Props.C18_readback",
    "Verif.Props.C18_kept",
    "Verif.Props.C18_operator"
   ],
   "note": ""
  },
  {
   "property": "C19",
   "status": "proved",
   "theorems": [
    "Verif.Props.C19_register",
    "Verif.Props.C19_twice",
    "Verif.Props.C19_unknown",
    "Verif.Props.C19_numbers",
    "Verif.Props.C19_select",
    "Verif.Props.C19_file"
   ],
   "note": ""
  },
  {
   "property": "C49",
   "status": "proved",
   "theorems": [
    "Verif.Props.C49_same",
    "Verif.Props.C49_setFont"
   ],
   "note": "Style letters B and I not repeated (a style like BB names no font). Case is ASCII case."
  },
  {
   "property": "C48",
   "status": "proved",
   "theorems": [
    "Verif.Props.C48_margins",
    "Verif.Props.C48_subWrite"
   ],
   "note": "Margins: for call-back functions that do not set margins themselves."
  },
  {
   "property": "C28",
   "status": "proved",
   "theorems": [
    "Verif.Props.C28_cell",
    "Verif.Props.C28_header_footer",
    "Verif.Props.C28_fits",
    "Verif.Props.C40_image"
   ],
   "note": "For call-back functions that start no pages themselves and an accept-page-break function that only answers; the last part for documents without header function. C40_image has the same for flowing images."
  },
  {
   "property": "C29",
   "status": "proved",
   "theorems": [
    "Verif.Props.C29_cell",
    "Verif.Props.C29_ln",
    "Verif.Props.C29_cell_ln",
    "Verif.Props.C29_set",
    "Verif.Props.C40_image"
   ],
   "note": "C29_cell: without header function (a header function may leave the cursor anywhere)."
  },
  {
   "property": "C38",
   "status": "proved",
   "theorems": [
    "Verif.Props.C38_scale",
    "Verif.Props.C38_translate",
    "Verif.Props.C38_rotate",
    "Verif.Props.C38_skew",
    "Verif.Props.C38_mirror",
    "Verif.Props.C38_mirrorLine",
    "Verif.Props.C38_context"
   ],
   "note": "Cosine, sine and tangent are uninterpreted; the matrices are what a reader reads, each number up to half a unit of the fifth decimal."
  },
  {
   "property": "C40",
   "status": "proved",
   "theorems": [
    "Verif.Props.C40_size",
    "Verif.Props.C40_aspect",
    "Verif.Props.C40_image"
   ],
   "note": "For images with at least one pixel and a positive resolution; documents without header function."
  },
  {
   "property": "C52",
   "status": "proved",
   "theorems": [
    "Verif.Props.C52_inverse",
    "Verif.Props.C52_line",
    "Verif.Props.C52_rect",
    "Verif.Props.C52_moveTo",
    "Verif.Props.C52_lineTo",
    "Verif.Props.C52_curveTo",
    "Verif.Props.C52_curveCubicTo",
    "Verif.Props.C52_curve",
    "Verif.Props.C52_curveCubic",
    "Verif.Props.C52_polygon",
    "Verif.Props.C52_clipRect"
   ],
   "note": "Coordinates are read up to half a unit of the last decimal written."
  },
  {
   "property": "C53",
   "status": "proved",
   "theorems": [
    "Verif.Props.C53_drawPath",
    "Verif.Props.C52_rect",
    "Verif.Props.C52_curve",
    "Verif.Props.C52_curveCubic",
    "Verif.Props.C52_polygon",
    "Verif.Props.C53_style_false"
   ],
   "note": "Proved for the documented styles in any case; refuted for others, which are copied into the page."
  },
  {
   "property": "C03",
   "status": "proved",
   "theorems": [
    "Verif.Props.C03_text",
    "Verif.Props.C03_cell",
    "Verif.Props.C03_utf8"
   ],
   "note": "A cell that breaks the page is drawn on the page that follows; a byte-font cell's line endings are read as line feeds (C01)."
  },
  {
   "property": "C17",
   "status": "proved",
   "theorems": [
    "Verif.Props.C17_text",
    "Verif.Props.C17_cell",
    "Verif.Props.C17_set",
    "Verif.Props.C17_spot_false"
   ],
   "note": "For programs that set colours outside clipping/transformation regions and do not return to earlier pages, with the text colour last set by SetTextColor; every text-showing operator of the line is painted in it for a reader of the whole page, also after page breaks. Refuted for SetTextSpotColor (C17_spot_false)."
  },
  {
   "property": "C25",
   "status": "proved",
   "theorems": [
    "Verif.Props.C25_wrapped",
    "Verif.Props.C25_content",
    "Verif.Props.C25_fits",
    "Verif.Props.C25_loop"
   ],
   "note": "First-fit wrapping as an independent inductive specification; the literal loop of the code is proved equal to the function used."
  },
  {
   "property": "C26",
   "status": "proved",
   "theorems": [
    "Verif.Props.C26_wrapped",
    "Verif.Props.C26_content",
    "Verif.Props.C25_loop",
    "Verif.Props.C26_chinese_false"
   ],
   "note": "Chinese characters at a break are dropped (refuted for them)."
  },
  {
   "property": "C27",
   "status": "proved",
   "theorems": [
    "Verif.Props.C27_cells",
    "Verif.Props.C27_content",
    "Verif.Props.C27_range",
    "Verif.Props.C27_cursor"
   ],
   "note": "A newline, blank or Chinese character is dropped at each break made at one."
  },
  {
   "property": "C51",
   "status": "proved",
   "theorems": [
    "Verif.Props.C51_run",
    "Verif.Props.C51_content",
    "Verif.Props.C51_fits",
    "Verif.Props.C51_blank",
    "Verif.Props.C51_margin_false"
   ],
   "note": "For texts whose characters are all in the width table of the font (the code panics otherwise)."
  },
  {
   "property": "C21",
   "status": "proved",
   "theorems": [
    "Verif.Props.C21_valid",
    "Verif.Props.C21_get",
    "Verif.Props.C21_refused",
    "Verif.Props.C21_kept",
    "Verif.Props.C21_shared",
    "Verif.Props.C21_file",
    "Verif.Props.C21_page_false",
    "Verif.Props.C21_empty_false"
   ],
   "note": "Refuted parts: a new page starts opaque while GetAlpha still reports the old setting, and the empty mode (documented as Normal) writes an empty name."
  },
  {
   "property": "C22",
   "status": "proved",
   "theorems": [
    "Verif.Props.C22_layers",
    "Verif.Props.C22_alpha",
    "Verif.Props.C22_image",
    "Verif.Props.C22_twoPage_false"
   ],
   "note": "Refuted for the layouts TwoPageLeft and TwoPageRight: the version is raised after the header was written."
  },
  {
   "property": "C56",
   "status": "proved",
   "theorems": [
    "Verif.Props.C56_file",
    "Verif.Props.C56_default",
    "Verif.Props.C56_protected_producer",
    "Verif.Props.C56_protected_false"
   ],
   "note": "Refuted for protected documents: only the first string of the information dictionary can be decrypted."
  },
  {
   "property": "C57",
   "status": "proved",
   "theorems": [
    "Verif.Props.C57_checked",
    "Verif.Props.C57_layout",
    "Verif.Props.C57_zoom",
    "Verif.Props.C57_attachment_false"
   ],
   "note": "Refuted for documents with attachments: the catalog opens object 3, which is then not a page."
  },
  {
   "property": "C58",
   "status": "proved",
   "theorems": [
    "Verif.Props.C58_layer",
    "Verif.Props.C58_only",
    "Verif.Props.C58_pane",
    "Verif.Props.C58_pane_false"
   ],
   "note": "Refuted part: with bookmarks as well the catalog has two /PageMode entries."
  },
  {
   "property": "C59",
   "status": "proved",
   "theorems": [
    "Verif.Props.C59_script",
    "Verif.Props.C59_none"
   ],
   "note": ""
  },
  {
   "property": "C60",
   "status": "proved",
   "theorems": [
    "Verif.Props.C60_stream",
    "Verif.Props.C60_unreferenced"
   ],
   "note": "Finding: the catalog never names the metadata stream."
  },
  {
   "property": "C61",
   "status": "proved",
   "theorems": [
    "Verif.Props.C61_protected",
    "Verif.Props.C61_unprotected"
   ],
   "note": "MD5 arbitrary; RC4 modelled."
  },
  {
   "property": "C34",
   "status": "proved",
   "theorems": [
    "Verif.Props.C34_listed",
    "Verif.Props.C34_only",
    "Verif.Props.C34_annotations",
    "Verif.Props.C34_reused_false"
   ],
   "note": "for attachments not written to another document before; C34_reused_false shows that an attachment used in a second document is not embedded there and its reference dangles"
  },
  {
   "property": "C24",
   "status": "proved",
   "theorems": [
    "Verif.Props.C24_pages",
    "Verif.Props.C24_unset",
    "Verif.Props.C24_gone",
    "Verif.Props.C24_order",
    "Verif.Props.C24_order_count",
    "Verif.Props.C24_order_false",
    "Verif.Props.C24_escaped_false"
   ],
   "note": "Replaced/ReplacedAll is the specification of left-to-right replacement; aliases are UTF-8 text of the basic plane; independence of map order is proved for bracketed names with harmless replacements and refuted in general (C24_order_false); names with parentheses are never found (C24_escaped_false)"
  },
  {
   "property": "C30",
   "status": "proved",
   "theorems": [
    "Verif.Props.C30_alpha"
   ],
   "note": "for well-formed files; unfilter is the PNG/PDF predictor specification"
  },
  {
   "property": "C31",
   "status": "proved",
   "theorems": [
    "Verif.Props.C31_read",
    "Verif.Props.C31_empty_false",
    "Verif.Props.C31_damaged_false"
   ],
   "note": "well-formed files without empty chunks; C31_empty_false: data after an empty chunk is silently dropped; C31_damaged_false: damaged files can make the library panic"
  },
  {
   "property": "C39",
   "status": "proved",
   "theorems": [
    "Verif.Props.C39_contain",
    "Verif.Props.C39_extent",
    "Verif.Props.C39_distance",
    "Verif.Props.C39_label",
    "Verif.Props.C39_label_false",
    "Verif.Props.C39_lines",
    "Verif.Props.C39_plot"
   ],
   "note": "Exact rational arithmetic. C39_label_false: with TickmarksExtentX and divisions of 1/4 the label of 1/4 reads 0.2."
  },
  {
   "property": "C62",
   "status": "proved",
   "theorems": [
    "Verif.Props.C62_program",
    "Verif.Props.C62_restored",
    "Verif.Props.C62_break_false",
    "Verif.Props.C62_spot_false"
   ],
   "note": "Grid leaves automatic page breaking off and loses spot colours (refutations)."
  },
  {
   "property": "C41",
   "status": "proved",
   "theorems": [
    "Verif.Props.C41_array",
    "Verif.Props.C41_widths",
    "Verif.Props.C41_missing_false"
   ],
   "note": "C41_missing_false: a font without a missing width has no /DW entry, so a reader uses 1000 where the library measured 500."
  },
  {
   "property": "C47",
   "status": "proved",
   "theorems": [
    "Verif.Props.C47_translates",
    "Verif.Props.C47_ascii",
    "Verif.Props.C47_bad_last",
    "Verif.Props.C47_report_false"
   ],
   "note": "C47_report_false: an error in a line that is not the last one is forgotten."
  },
  {
   "property": "C44",
   "status": "proved",
   "theorems": [
    "Verif.Props.C44_directory"
   ],
   "note": ""
  },
  {
   "property": "C42",
   "status": "proved",
   "theorems": [
    "Verif.Props.C42_tables",
    "Verif.Props.C42_adjustment",
    "Verif.Props.C42_adjustment_false"
   ],
   "note": "C42_adjustment_false: the whole-file sum is 0xB1B2AFBA when the subtraction borrows."
  },
  {
   "property": "C43",
   "status": "proved",
   "theorems": [
    "Verif.Props.C43_cmap",
    "Verif.Props.C43_length_false"
   ],
   "note": "C43_length_false: the length field of the sub-table is wrong."
  },
  {
   "property": "C15",
   "status": "proved",
   "theorems": [
    "Verif.Props.C15_calls",
    "Verif.Props.C15_setPage_false"
   ],
   "note": "Calls are recorded in a ghost component of the model's state (CbEvent log), appended exactly where the code calls headerFnc and footerFnc/footerFncLpi. The hypothesis that the last page is selected is necessary: C15_setPage_false."
  },
  {
   "property": "C32",
   "status": "proved",
   "theorems": [
    "Verif.Props.C32_order",
    "Verif.Props.C32_templates"
   ],
   "note": "The order of sortTemplates, and the form objects in the file. Hypothesis SameTemplates: equal pointers are the same template (Go object identity). Image names in template resources are not covered here."
  },
  {
   "property": "C46",
   "status": "proved",
   "theorems": [
    "Verif.Props.C46_once",
    "Verif.Props.C46_images",
    "Verif.Props.C46_template_false"
   ],
   "note": "Identifiers are hashes of the content in the code and are compared as such. C46_template_false: an image a template brings along whose content is already registered by another call is named with object number 0."
  },
  {
   "property": "C45",
   "status": "proved",
   "theorems": [
    "Verif.Props.C45_reproducible",
    "Verif.Props.C45_drawing",
    "Verif.Props.C45_reach",
    "Verif.Props.C45_spots_false",
    "Verif.Props.C45_images_false",
    "Verif.Props.C45_boxes_false",
    "Verif.Props.C45_unsorted_false"
   ],
   "note": "The map order is a parameter of the model (E.ord, any permutation of the keys at each place); Settled lists what a document must be like. The _false theorems show that each condition is needed: with catalog sorting on, two spot colours, two images of one width, or two page boxes give different files in different orders (two aliases: C24_order_false)."
  },
  {
   "property": "C33",
   "status": "proved",
   "theorems": [
    "Verif.Props.C33_roundTrip",
    "Verif.Props.C33_names",
    "Verif.Props.C33_images",
    "Verif.Props.C33_templates",
    "Verif.Props.C33_made",
    "Verif.Props.C33_made_intact",
    "Verif.Props.C33_changed_false",
    "Verif.Props.C33_twins_false"
   ],
   "note": "gob itself is assumed to give back the values it is given (Model/Gob.lean); GobEncode's choice of what to write and GobDecode's reconstruction are modelled. C33_made derives the hypothesis World from the API calls that build templates. The two _false theorems refute the property for images changed after registration and for templates with the same content."
  },
  {
   "property": "C63",
   "status": "proved",
   "theorems": [
    "Verif.Props.C63_fromPage",
    "Verif.Props.C63_fromPages"
   ],
   "note": ""
  },
  {
   "property": "C64",
   "status": "proved",
   "theorems": [
    "Verif.Props.C64_gradient"
   ],
   "note": ""
  },
  {
   "property": "C65",
   "status": "proved",
   "theorems": [
    "Verif.Props.C65_uri",
    "Verif.Props.C65_internal",
    "Verif.Props.C65_cell"
   ],
   "note": "In a protected document the URI string is encrypted (c in C65_uri); whether a reader can decrypt it depends on its place among the strings of the object (see C56). C65_cell is for fonts that are not UTF-8, without vertical alignment and without a page break; C65_internal is for documents without attachments (C50_attachment_false)."
  },
  {
   "property": "C66",
   "status": "proved",
   "theorems": [
    "Verif.Props.C66_box",
    "Verif.Props.C66_only",
    "Verif.Props.C66_refused"
   ],
   "note": "SetPageBox measures y from the bottom of the page (unlike the rest of the API). The programs considered do not go back to earlier pages with SetPage (after which a new page would get a number that is not the last)."
  },
  {
   "property": "C67",
   "status": "proved",
   "theorems": [
    "Verif.Props.C67_spread",
    "Verif.Props.C67_exact_false",
    "Verif.Props.C67_utf8"
   ],
   "note": "C67_exact_false refutes exact filling for byte fonts (the code divides integers)."
  },
  {
   "property": "C68",
   "status": "proved",
   "theorems": [
    "Verif.Props.C68_fill",
    "Verif.Props.C68_draw",
    "Verif.Props.C68_spot",
    "Verif.Props.C68_width",
    "Verif.Props.C68_shape",
    "Verif.Props.C68_rect",
    "Verif.Props.C68_clip_false",
    "Verif.Props.C68_setPage_false"
   ],
   "note": "For programs that set attributes outside clipping/transformation regions (refuted inside them: C68_clip_false) and do not return to earlier pages (refuted: C68_setPage_false)."
  },
  {
   "property": "C69",
   "status": "proved",
   "theorems": [
    "Verif.Props.C69_place",
    "Verif.Props.C69_scaled",
    "Verif.Props.C69_file",
    "Verif.Props.C69_position_false",
    "Verif.Props.C69_landscape_false"
   ],
   "note": "Portrait pages. C69_position_false refutes 'the position at which it was originally written' for templates created with a corner other than (0, 0); C69_landscape_false refutes the claim for landscape pages. The drawing of the template's contents is not a call of the modelled document: its page is a document of the template's size (newTpl), its contents are arbitrary bytes."
  },
  {
   "property": "C70",
   "status": "proved",
   "theorems": [
    "Verif.Props.C70_set",
    "Verif.Props.C70_page",
    "Verif.Props.C70_header_false"
   ],
   "note": "C70_page is for programs that add pages in order (without SetPage) and callbacks that do not add pages. C70_header_false: the styles set by a header function stay."
  },
  {
   "property": "C71",
   "status": "proved",
   "theorems": [
    "Verif.Props.C71_arc",
    "Verif.Props.C71_arc_rotated",
    "Verif.Props.C71_arcTo",
    "Verif.Props.C71_arcTo_rotated_false",
    "Verif.Props.C71_roundedRect",
    "Verif.Props.C71_beziergon",
    "Verif.Props.C71_clipRoundedRect",
    "Verif.Props.C71_clipEllipse",
    "Verif.Props.C71_clipPolygon",
    "Verif.Props.C71_clipText"
   ],
   "note": "cos, sin, pi and the square root of 2 are parameters of the model (any functions of degrees). C71_arcTo_rotated_false: ArcTo with a rotation saves the graphics state in the middle of a path."
  },
  {
   "property": "C72",
   "status": "proved",
   "theorems": [
    "Verif.Props.C72_file",
    "Verif.Props.C72_widths",
    "Verif.Props.C72_widths_false",
    "Verif.Props.C72_chars",
    "Verif.Props.C72_accepts",
    "Verif.Props.C72_refuses",
    "Verif.Props.C72_chars_false"
   ],
   "note": "For tables that lie inside the file; segments in order as the standard wants. The tables name, OS/2 and post are not modelled."
  }
 ]
}