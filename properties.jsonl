{"id": "C01", "title": "Literal strings survive escaping", "statement": "For every byte string s, the PDF literal string that the library writes for s (metadata, link URIs, bookmark titles, javascript, text shown on a page) is read back by a PDF reader as exactly s, and the reader stops exactly at the closing parenthesis the library wrote.", "quantifier": "all byte strings s and all bytes that follow the literal in the file", "why_tests_cant": "the domain is infinite; a unit test fixes a handful of values, and the counterexamples sit at particular byte combinations", "anchors": ["fpdf.go:escape", "fpdf.go:textstring", "fpdf.go:CellFormat", "fpdf.go:Text"]}
{"id": "C02", "title": "UTF-8 text is stored as equivalent UTF-16BE", "statement": "For every text of Unicode scalar values below U+10000 passed as UTF-8 to a metadata setter or UTF-8 font call, the stored bytes are (optionally BOM-prefixed) UTF-16BE that decodes to the same sequence of code points; code points from U+10000 on are not stored correctly (their high bits are lost), and truncated UTF-8 makes the call panic.", "quantifier": "all sequences of Unicode scalar values, all truncated inputs", "why_tests_cant": "the domain is infinite; a unit test fixes a handful of values, and the counterexamples sit at particular byte combinations; the code table has over a million entries per position", "anchors": ["util.go:utf8toutf16", "fpdf.go:SetTitle", "fpdf.go:Bookmark"]}
{"id": "C03", "title": "Shown text cannot inject page operators", "statement": "Whatever text a caller passes to Text/Cell, what a PDF reader sees appended to the page is exactly: the cell background and the sides asked for, the text as a single string operand at the aligned position (or, in a justified cell with a UTF-8 font, as words and blanks), bars for underline and strikeout, and the text colour around it - nothing else. With a UTF-8 font the string decodes to the characters of the text (Basic Multilingual Plane).", "quantifier": "all text byte strings, positions and following content", "why_tests_cant": "the domain is infinite; a unit test fixes a handful of values, and the counterexamples sit at particular byte combinations", "anchors": ["fpdf.go:Text", "fpdf.go:CellFormat", "fpdf.go:escape"]}
{"id": "C04", "title": "Encryption is reversible with the document key", "statement": "For every key and every stream, decrypting the bytes the library writes for an object with that object's key (RC4 over MD5(key,objnum)) yields the original bytes; encryption preserves length.", "quantifier": "all keys, object numbers and byte strings", "why_tests_cant": "the domain is infinite; a unit test fixes a handful of values, and the counterexamples sit at particular byte combinations", "anchors": ["protect.go:rc4", "protect.go:objectKey", "fpdf.go:putstream"]}
{"id": "C05", "title": "Passwords open the protected document", "statement": "For every user and owner password, a reader following the PDF standard security handler (revision 2) authenticates with the given user password, and recovers the user password from the owner password; the permission flags requested are the ones stored.", "quantifier": "all passwords and permission flags, any MD5 with 16-byte digests", "why_tests_cant": "the domain is infinite; a unit test fixes a handful of values, and the counterexamples sit at particular byte combinations", "anchors": ["protect.go:setProtection", "protect.go:oValueGen", "protect.go:uValueGen"]}
{"id": "C06", "title": "Every string in a protected document is decryptable", "statement": "In a protected document, a string or stream that is the first thing encrypted in its object is recovered by a reader with that object's key; a further string of the same object is encrypted with the continuation of the key stream, so that a reader that follows the standard does not recover it.", "quantifier": "all histories of strings and streams written to the same and to different objects", "why_tests_cant": "depends on the number and order of strings within one object (cipher state is history dependent)", "anchors": ["protect.go:rc4", "fpdf.go:textstring", "fpdf.go:putinfo"]}
{"id": "C07", "title": "Cross-reference table points at the objects", "statement": "In every document written without error by a program that begins a page before it draws, the file starts with the header, entry j of the cross-reference table (j = 1..Size-1) gives the byte offset of the text 'j 0 obj', no object number is defined twice, and startxref gives the offset of the table. A program that draws before the first page gets the same file preceded by what it drew (so the header is not first and all is shifted consistently).", "quantifier": "all documents (every sequence of API calls before Output)", "why_tests_cant": "offsets depend on every byte produced by every preceding call", "anchors": ["fpdf.go:newobj", "fpdf.go:putpages", "fpdf.go:putresources", "fpdf.go:enddoc"]}
{"id": "C08", "title": "Stream lengths are exact", "statement": "For every stream object written, the /Length declared is exactly the number of bytes between 'stream' and 'endstream', with compression or protection on or off.", "quantifier": "all page contents, images, fonts, attachments, metadata", "why_tests_cant": "depends on arbitrary content bytes", "anchors": ["fpdf.go:putstream", "fpdf.go:putpages", "attachments.go:embed", "template.go"]}
{"id": "C09", "title": "Errors latch", "statement": "Once an error is recorded, no API call other than ClearError removes it, and SetError/SetErrorf never replace it; every call outside a fixed list of seven (which can replace it by another error) keeps the very same error.", "quantifier": "all states and all sequences of API calls", "why_tests_cant": "it must hold after every sequence of API calls with every argument, and a test only fixes a few histories", "anchors": ["fpdf.go:SetErrorf", "fpdf.go:SetError", "fpdf.go:ClearError", "fpdf.go:SetPageBoxRec", "fpdftrans.go:TransformScale", "fpdftrans.go:TransformEnd"]}
{"id": "C10", "title": "Nothing is output when an error is set", "statement": "Output writes nothing and returns the error when an error is already set; when it returns without error it has written exactly one complete PDF file. (When Close itself fails inside Output, the bytes produced so far are written although the error is returned.)", "quantifier": "all states and histories", "why_tests_cant": "it must hold after every sequence of API calls with every argument, and a test only fixes a few histories", "anchors": ["fpdf.go:Output", "fpdf.go:Close", "fpdf.go:OutputFileAndClose"]}
{"id": "C11", "title": "Graphics state nesting is balanced", "statement": "In every document written without error by a tidy program (documented style strings, none of RoundedRect/RawWriteStr/RawWriteBuf, no page begun and no SetPage while a clip or transformation is open, call-backs that close what they open, no aliases), the q and Q operators of each page's content balance, and never pop below the page's start. RoundedRect, and pages added inside a clip, break this.", "quantifier": "all sequences of drawing, clipping and transformation calls", "why_tests_cant": "it must hold after every sequence of API calls with every argument, and a test only fixes a few histories", "anchors": ["fpdf.go:ClipRect", "fpdf.go:ClipEnd", "fpdftrans.go:TransformBegin", "fpdftrans.go:TransformEnd", "fpdf.go:Close", "fpdf.go:RoundedRect"]}
{"id": "C12", "title": "Layer sections are balanced on every page", "statement": "In every document written without error by a tidy program (as C11; layers begun on the last page and no SetPage while one is open), each page's content has every optional-content BDC closed by an EMC on the same page, never nested, whatever BeginLayer/EndLayer calls are made. SetPage while a layer is open breaks this.", "quantifier": "all sequences of layer and page calls", "why_tests_cant": "it must hold after every sequence of API calls with every argument, and a test only fixes a few histories", "anchors": ["layer.go:BeginLayer", "layer.go:EndLayer", "fpdf.go:endpage"]}
{"id": "C13", "title": "Every page is emitted, in order", "statement": "For every program that does not leave an earlier page selected with SetPage when the document is written, the final document lists exactly PageCount pages, in the order of AddPage, each with exactly the content drawn while it was the current page. If an earlier page is left selected the later pages are missing.", "quantifier": "all histories of AddPage/SetPage/drawing calls", "why_tests_cant": "it must hold after every sequence of API calls with every argument, and a test only fixes a few histories", "anchors": ["fpdf.go:putpages", "fpdf.go:SetPage", "fpdf.go:AddPageFormat"]}
{"id": "C14", "title": "AddPage preserves the graphics settings", "statement": "With a font of non-zero size selected, font family, style, size, underline, strikeout, line width and the draw/fill/text colours in force after AddPage (or an automatic page break) equal those before it, whatever the header and footer functions do (short of closing the document).", "quantifier": "all states and all header and footer functions", "why_tests_cant": "ranges over all user callbacks", "anchors": ["fpdf.go:AddPageFormat", "fpdf.go:SetFont"]}
{"id": "C15", "title": "Header and footer run exactly once per page", "statement": "In a program that sets header and footer functions before its first page (functions that do not themselves add or select pages), and writes the document without an error with the last page selected, the header function was called exactly once for each page, when the page began, and the footer exactly once for each page, when it ended, with lastPage true only for the final page, however the pages came about. (With an earlier page selected that page's footer is called twice and the last page's not at all.)", "quantifier": "all histories", "why_tests_cant": "it must hold after every sequence of API calls with every argument, and a test only fixes a few histories", "anchors": ["fpdf.go:AddPageFormat", "fpdf.go:Close"]}
{"id": "C16", "title": "Page geometry is consistent", "statement": "As long as pages are added in order (no SetPage): at all times GetPageSize returns the size and orientation the current page was added with, the page-break trigger is the bottom margin above the lower edge, and the MediaBox written for page n is the size and orientation that page was added with, times the unit scale. (After SetPage to a page of another size GetPageSize stays that of the page left; PageSize(n) ignores the document's orientation.)", "quantifier": "all histories, orientations, sizes and units", "why_tests_cant": "it must hold after every sequence of API calls with every argument, and a test only fixes a few histories", "anchors": ["fpdf.go:beginpage", "fpdf.go:putpages", "fpdf.go:SetAutoPageBreak", "fpdf.go:PageSize"]}
{"id": "C17", "title": "Text is painted in the text colour", "statement": "The text colour operator is emitted with text exactly when it is needed: after any sequence of colour calls, text shown is painted in the last colour set with SetTextColor/SetTextSpotColor.", "quantifier": "all sequences of colour calls", "why_tests_cant": "it must hold after every sequence of API calls with every argument, and a test only fixes a few histories", "anchors": ["fpdf.go:setFillColor", "fpdf.go:setTextColor", "spotcolor.go:SetTextSpotColor", "fpdf.go:CellFormat"]}
{"id": "C18", "title": "Colour components are clamped and read back", "statement": "GetDrawColor/GetFillColor/GetTextColor return the last components set, clamped to 0..255, and the operator written has components in 0..1.", "quantifier": "all integers", "why_tests_cant": "the domain is infinite; a unit test fixes a handful of values, and the counterexamples sit at particular byte combinations", "anchors": ["fpdf.go:colorComp", "fpdf.go:rgbColorValue", "fpdf.go:GetDrawColor"]}
{"id": "C19", "title": "Spot colours are registered once and consistently", "statement": "AddSpotColor gives each name a distinct identifier with components clamped to 0..100; re-registration or use of unknown names is an error and changes nothing.", "quantifier": "all sequences of AddSpotColor / Set*SpotColor calls", "why_tests_cant": "it must hold after every sequence of API calls with every argument, and a test only fixes a few histories", "anchors": ["spotcolor.go:AddSpotColor", "spotcolor.go:getSpotColor", "spotcolor.go:SetDrawSpotColor"]}
{"id": "C20", "title": "Every resource used is defined", "statement": "In every document written without error by a tidy program without aliases, the resources of each page are object 2, and every name used by an operator of a page (graphics state, shading, layer, colour space, font, image, template) is in the category of that dictionary where the operator looks it up, with the number of an object of the file of the kind required (except the font name /F used when a size is set before any font).", "quantifier": "all sequences of API calls", "why_tests_cant": "it must hold after every sequence of API calls with every argument, and a test only fixes a few histories", "anchors": ["fpdf.go:SetAlpha", "fpdf.go:gradient", "layer.go:BeginLayer", "fpdf.go:putresourcedict", "fpdf.go:putBlendModes"]}
{"id": "C21", "title": "Transparency settings are validated and deduplicated", "statement": "SetAlpha accepts exactly alpha in [0,1] together with a documented blend mode (or the empty string); a refused call changes nothing but the error; GetAlpha returns the arguments of the last accepted call; two accepted calls select the same graphics state exactly if alpha agrees to three decimals and the modes are equal; and in the finished file the name written on the page leads to a graphics state object with that alpha (to 0.0005) and mode. (It is not true that the setting reported by GetAlpha is in force on a new page, nor that the empty mode is written as Normal.)", "quantifier": "all alpha values, mode strings and histories", "why_tests_cant": "it must hold after every sequence of API calls with every argument, and a test only fixes a few histories", "anchors": ["fpdf.go:SetAlpha", "fpdf.go:GetAlpha", "fpdf.go:putBlendModes"]}
{"id": "C22", "title": "The header version covers the features used", "statement": "In every document written without error, the version in the %PDF- header is at least 1.5 if a layer was added, and at least 1.4 if SetAlpha was called or an image with a soft mask was registered. (The two-page layouts, which the code takes to need 1.5, do not raise the version in the header.)", "quantifier": "all histories", "why_tests_cant": "it must hold after every sequence of API calls with every argument, and a test only fixes a few histories", "anchors": ["fpdf.go:putheader", "layer.go:layerEndDoc", "fpdf.go:enddoc", "fpdf.go:putcatalog"]}
{"id": "C23", "title": "Bookmarks form the requested outline", "statement": "In every document written without error whose bookmark levels start at 0 and never skip a level on the way down, every bookmark is an outline item with its title, and the Parent/First/Last/Prev/Next links are exactly those of the tree given by the levels; bookmarks are never lost or altered by other calls. A first bookmark of level 1 becomes its own parent.", "quantifier": "all level sequences", "why_tests_cant": "outlines are unbounded trees", "anchors": ["fpdf.go:Bookmark", "fpdf.go:putbookmarks"]}
{"id": "C24", "title": "Aliases are fully replaced", "statement": "Every occurrence of the page-count alias in the page contents is replaced with the page count on all pages, other content is unchanged, and registering further aliases does not depend on map order.", "quantifier": "all page contents, aliases and replacements", "why_tests_cant": "the domain is infinite; a unit test fixes a handful of values, and the counterexamples sit at particular byte combinations", "anchors": ["fpdf.go:AliasNbPages", "fpdf.go:RegisterAlias", "fpdf.go:replaceAliases"]}
{"id": "C25", "title": "SplitLines wraps without losing text", "statement": "SplitLines terminates for every text and width; concatenating the lines gives back the text minus carriage returns, trailing newlines and exactly one separator at each break; every line longer than one character fits the width.", "quantifier": "all byte texts, widths and font metrics", "why_tests_cant": "the domain is infinite; a unit test fixes a handful of values, and the counterexamples sit at particular byte combinations", "anchors": ["fpdf.go:SplitLines"]}
{"id": "C26", "title": "SplitText wraps without losing text", "statement": "SplitText terminates, each line fits, and the characters of the lines are those of the text except for the one separator at which each break was made: white space, a newline, or (an error of the code, since it is visible text) a Chinese character.", "quantifier": "all rune texts, widths and metrics", "why_tests_cant": "the domain is infinite; a unit test fixes a handful of values, and the counterexamples sit at particular byte combinations", "anchors": ["splittext.go:SplitText", "util.go:isChinese"]}
{"id": "C27", "title": "MultiCell prints all of its text", "statement": "The cells printed by MultiCell hold the text in order, leaving out one separator (newline, blank or, as in SplitText, Chinese character) per break at one; each line of several characters fits the cell; the frame asked for is drawn around the lot; and the cursor ends at the left margin.", "quantifier": "all texts, widths, borders, alignments and metrics", "why_tests_cant": "the domain is infinite; a unit test fixes a handful of values, and the counterexamples sit at particular byte combinations", "anchors": ["fpdf.go:MultiCell"]}
{"id": "C28", "title": "Cells break pages exactly when they would overflow", "statement": "CellFormat starts a new page exactly when the cell's bottom would exceed the trigger, outside header/footer, and the accept-page-break function allows it; at the default settings no cell not taller than the page is drawn below the trigger.", "quantifier": "all states, heights and accept functions", "why_tests_cant": "it must hold after every sequence of API calls with every argument, and a test only fixes a few histories", "anchors": ["fpdf.go:CellFormat", "fpdf.go:SetAutoPageBreak", "fpdf.go:SetAcceptPageBreakFunc"]}
{"id": "C29", "title": "The cursor moves as documented", "statement": "After CellFormat the cursor is to the right, at the beginning of the next line or below according to ln; Ln, SetX, SetY, SetXY and Image flow move it as documented.", "quantifier": "all positions, sizes and ln values", "why_tests_cant": "the domain is infinite; a unit test fixes a handful of values, and the counterexamples sit at particular byte combinations", "anchors": ["fpdf.go:CellFormat", "fpdf.go:Ln", "fpdf.go:SetX", "fpdf.go:SetY", "fpdf.go:imageOut"]}
{"id": "C30", "title": "PNG alpha separation is lossless", "statement": "For every 8-bit grey+alpha or RGBA image and every choice of PNG row filters, the separated colour and alpha streams unfilter to exactly the colour and alpha samples of the image.", "quantifier": "all image sizes, all sample values, all filter choices", "why_tests_cant": "the domain is infinite; a unit test fixes a handful of values, and the counterexamples sit at particular byte combinations", "anchors": ["png.go:parsepngstream"]}
{"id": "C31", "title": "PNG chunks are all read", "statement": "Parsing a well-formed PNG returns the concatenation of all IDAT chunks, the palette, transparency and resolution declared, and skips other chunks.", "quantifier": "all sequences of chunks", "why_tests_cant": "the domain is infinite; a unit test fixes a handful of values, and the counterexamples sit at particular byte combinations", "anchors": ["png.go:parsepngstream"]}
{"id": "C32", "title": "Templates are written in dependency order", "statement": "The templates written are exactly those used by the document, directly or nested in other templates; each is written once, as a form whose contents are the template's, after the ones it uses, and its resources name the objects of the templates it uses and of every font of the document, as the page resources name those of the templates used on pages. (Templates with equal contents share one name.)", "quantifier": "all acyclic template graphs", "why_tests_cant": "template graphs are unbounded", "anchors": ["template.go:sortTemplates", "template.go:templateChainDependencies", "template.go:putTemplates"]}
{"id": "C33", "title": "Template serialisation round-trips", "statement": "Decoding a serialised template gives a template with the same box, pages, selected page and ID, exactly the same images (under the same names where the name is the template's own), and, all the way down, templates as good as those it used, with the same IDs. This holds for templates made through the API when IDs tell templates and images apart. It fails for an image changed after it was registered (SetDpi, or a document already written), whose ID changes, and for two templates with the same content and different boxes.", "quantifier": "all templates made by any sequence of registering images, using templates and selecting pages", "why_tests_cant": "the domain is infinite; a unit test fixes a handful of values, and the counterexamples sit at particular byte combinations", "anchors": ["template_impl.go:GobEncode", "template_impl.go:GobDecode", "template_impl.go:childrenImages", "template_impl.go:childrensTemplates", "def.go:GobDecode"]}
{"id": "C34", "title": "Attachments are embedded once and referenced correctly", "statement": "Each attachment used in a document is embedded exactly once and every reference to it names the object holding its file specification.", "quantifier": "all attachment lists and annotation histories", "why_tests_cant": "it must hold after every sequence of API calls with every argument, and a test only fixes a few histories", "anchors": ["attachments.go:embed", "attachments.go:putAttachments", "attachments.go:putAnnotationsAttachments"]}
{"id": "C35", "title": "PDF comparison detects differences", "statement": "CompareBytes returns nil exactly when the two slices agree on their first n bytes, n being the smaller length (n-1 bytes if n leaves remainder 1 when divided by 16); so equal slices compare equal, slices of equal length not 1 modulo 16 compare equal only if they are, but slices of different lengths or with a different last byte can compare equal as well.", "quantifier": "all pairs of byte slices", "why_tests_cant": "the domain is infinite; a unit test fixes a handful of values, and the counterexamples sit at particular byte combinations", "anchors": ["compare.go:CompareBytes"]}
{"id": "C36", "title": "SVG relative paths are resolved correctly", "statement": "SVGBasicParse followed by SVGBasicWrite writes on the current page exactly the strokes the SVG standard assigns to the paths, scaled and moved to the current position, including relative commands and argument groups without a letter, as long as no relative command follows a close-path directly (there the code continues from the wrong point); a path whose last command is incomplete is rejected. Quadratic curves are the exception: Curve, documented to draw a quadratic Bezier curve, writes an operator that draws a different one.", "quantifier": "all SVG path texts, scales and documents with a page", "why_tests_cant": "the domain is infinite; a unit test fixes a handful of values, and the counterexamples sit at particular byte combinations", "anchors": ["svgbasic.go:absolutizePath", "svgbasic.go:pathParse", "svgwrite.go:SVGBasicWrite", "fpdf.go:Curve"]}
{"id": "C37", "title": "HTML tokenising preserves text", "statement": "The tokens of HTMLBasicTokenize account for the whole input: text segments in order, tags lower-cased, nothing reordered.", "quantifier": "all strings", "why_tests_cant": "the domain is infinite; a unit test fixes a handful of values, and the counterexamples sit at particular byte combinations", "anchors": ["htmlbasic.go:HTMLBasicTokenize"]}
{"id": "C38", "title": "Geometric transformations do what they say", "statement": "Scaling, rotating and skewing about a point keep that point fixed, mirroring twice is the identity, translation adds the offset, in user coordinates after the page flip.", "quantifier": "all points, factors and angles", "why_tests_cant": "the domain is infinite; a unit test fixes a handful of values, and the counterexamples sit at particular byte combinations", "anchors": ["fpdftrans.go:TransformScale", "fpdftrans.go:TransformRotate", "fpdftrans.go:TransformMirrorPoint"]}
{"id": "C39", "title": "Grid scaling, tick marks, lines and plots are sound", "statement": "TickmarksContain covers every range with equally spaced marks at round distances (1, 2 or 5 times a power of ten), without a superfluous one, in 3 to 6 divisions, and its default labels read back as exactly the values marked; X and Y map the first and last mark to the edges of the rectangle and values in between in proportion; Grid draws one line per subdivision, main lines exactly at the marks; Plot draws count segments joining consecutive points of the graph from xMin to xMax.", "quantifier": "all ranges, sizes, subdivisions and functions", "why_tests_cant": "the domain is infinite; a unit test fixes a handful of values, and the counterexamples sit at particular byte combinations", "anchors": ["grid.go:linear", "grid.go:X", "grid.go:Grid", "grid.go:Plot", "label.go:Tickmarks", "label.go:TickmarkPrecision"]}
{"id": "C40", "title": "Images keep their aspect ratio", "statement": "If one of width and height is 0 the other determines it by the pixel aspect ratio; if both are 0 the image is drawn at 96 dpi, -1 asks for the resolution of the image and other negative values for that resolution; it is drawn at the position asked for, and in flowing mode a page is started exactly when it would reach below the bottom margin and the cursor is then below the image.", "quantifier": "all image dimensions, dpi and requested sizes", "why_tests_cant": "the domain is infinite; a unit test fixes a handful of values, and the counterexamples sit at particular byte combinations", "anchors": ["fpdf.go:imageOut", "def.go:Extent"]}
{"id": "C41", "title": "CID width arrays give every used glyph's width", "statement": "Reading the /W array written for a UTF-8 font per the PDF specification gives, for every used character, the width the library measures text with, provided the font has a width for missing characters (without one the reader's default of 1000 and the library's 500 differ).", "quantifier": "all sets of used characters and width tables", "why_tests_cant": "the domain is infinite; a unit test fixes a handful of values, and the counterexamples sit at particular byte combinations", "anchors": ["fpdf.go:generateCIDFontMap", "util.go:untypedKeyMap"]}
{"id": "C42", "title": "Font table checksums are right", "statement": "The checksum stored for a font table is the 32-bit sum of its big-endian words (zero padded), and the head checkSumAdjustment makes the whole file sum to 0xB1B0AFBA unless its computation borrows from the high half, when the sum is 0xB1B2AFBA.", "quantifier": "all table contents", "why_tests_cant": "the domain is infinite; a unit test fixes a handful of values, and the counterexamples sit at particular byte combinations", "anchors": ["utf8fontfile.go:generateChecksum", "utf8fontfile.go:calcInt32", "utf8fontfile.go:assembleTables"]}
{"id": "C43", "title": "The subset font's character map is right", "statement": "The format-4 cmap table written for a subset maps every used character code to the glyph assigned to it and every other code to glyph 0; its length field, however, is wrong.", "quantifier": "all code-to-glyph maps", "why_tests_cant": "the domain is infinite; a unit test fixes a handful of values, and the counterexamples sit at particular byte combinations", "anchors": ["utf8fontfile.go:generateCMAPTable"]}
{"id": "C44", "title": "Font table directories are consistent", "statement": "In the font file written, each directory entry's offset and length delimit exactly the table's bytes, offsets are multiples of four and tables do not overlap.", "quantifier": "all sets of tables", "why_tests_cant": "the domain is infinite; a unit test fixes a handful of values, and the counterexamples sit at particular byte combinations", "anchors": ["utf8fontfile.go:assembleTables", "utf8fontfile.go:splice"]}
{"id": "C45", "title": "Sorted catalogs make output reproducible", "statement": "Every drawing call gives the same document whatever order Go goes through its maps in. With catalog sorting on (and the same clock), the bytes written by Output are the same for every such order, provided the document has no ties: at most one alias, or aliases with bracketed names whose replacements do not interfere; at most one page box per page, at most one spot colour, different fonts under different names, images of equal width identical, at most one image per template. Without these conditions it is false: spot colours, page boxes, images of equal width and aliases are still written in map order.", "quantifier": "all documents, call-backs, and map iteration orders, chosen independently at every place of the program", "why_tests_cant": "Go randomises map order; a test observes only one order", "anchors": ["fpdf.go:putfonts", "fpdf.go:putimages", "spotcolor.go:putSpotColors", "fpdf.go:putpages", "fpdf.go:putxobjectdict", "fpdf.go:putresourcedict", "template.go:putTemplates"]}
{"id": "C46", "title": "Images are written once and referenced correctly", "statement": "In the file of a document without errors, all registered images with the same content identifier share one image object, which holds the image data and describes it (size, colour space, filter, mask), and the resource dictionary maps the name of every registered image to that object. Images that only a template brings along get the same treatment unless another registered image has the same content: then the template's image name refers to object 0 (refuted).", "quantifier": "all sets of registered images", "why_tests_cant": "it must hold after every sequence of API calls with every argument, and a test only fixes a few histories", "anchors": ["fpdf.go:putimages", "fpdf.go:putxobjectdict", "fpdf.go:RegisterImageOptionsReader"]}
{"id": "C47", "title": "Code page translation", "statement": "The Unicode translator maps each rune to exactly one byte: ASCII unchanged, mapped runes to their code, all others to '.'; a malformed last line of the map is reported, a malformed earlier one is not.", "quantifier": "all texts and map files", "why_tests_cant": "the domain is infinite; a unit test fixes a handful of values, and the counterexamples sit at particular byte combinations", "anchors": ["util.go:UnicodeTranslator", "util.go:repClosure"]}
{"id": "C48", "title": "Temporary settings are restored", "statement": "SubWrite restores the font size and WriteAligned restores the margins, whatever the text.", "quantifier": "all states, sizes and texts", "why_tests_cant": "it must hold after every sequence of API calls with every argument, and a test only fixes a few histories", "anchors": ["subwrite.go:SubWrite", "fpdf.go:WriteAligned"]}
{"id": "C49", "title": "Fonts are selected by normalised family and style", "statement": "SetFont treats styles as sets of B, I, U, S letters: 'IB' and 'BI' select the same font, U and S only set decoration; family is case-insensitive; an unknown font is an error that leaves the current font unchanged.", "quantifier": "all family and style strings", "why_tests_cant": "the domain is infinite; a unit test fixes a handful of values, and the counterexamples sit at particular byte combinations", "anchors": ["fpdf.go:SetFont", "fpdf.go:getFontKey"]}
{"id": "C50", "title": "Links and bookmarks lead to their page", "statement": "In every document without attachments written without error, each internal link and each bookmark names the page object of the page it was set to, which exists. With attachments, whose objects come first, the numbers are wrong.", "quantifier": "all histories", "why_tests_cant": "it must hold after every sequence of API calls with every argument, and a test only fixes a few histories", "anchors": ["fpdf.go:putpages", "fpdf.go:putbookmarks", "fpdf.go:SetLink", "fpdf.go:putcatalog"]}
{"id": "C51", "title": "Write flows all of its text", "statement": "Write prints its text in order, line after line, dropping one newline or blank per break at one; lines end at a newline, else at the last blank before the right margin, else at the last character that fits; only text that was moved to the next line for lack of room can extend past the right margin, by less than a character.", "quantifier": "all texts, positions and metrics", "why_tests_cant": "the domain is infinite; a unit test fixes a handful of values, and the counterexamples sit at particular byte combinations", "anchors": ["fpdf.go:write"]}
{"id": "C52", "title": "Unit conversions are inverse", "statement": "PointConvert / UnitToPointConvert are mutually inverse for every unit, and every coordinate written to the page is the user coordinate times the scale with the y axis flipped.", "quantifier": "all units and values", "why_tests_cant": "the domain is infinite; a unit test fixes a handful of values, and the counterexamples sit at particular byte combinations", "anchors": ["fpdf.go:fpdfNew", "def.go:PointConvert"]}
{"id": "C53", "title": "Path painting operators", "statement": "For every documented style string, in any case, the drawing calls write exactly the painting operator of that style, once per path; undocumented styles are copied into the page as they are.", "quantifier": "all style strings, all shapes and coordinates", "why_tests_cant": "the domain is infinite; a unit test fixes a handful of values, and the counterexamples sit at particular byte combinations", "anchors": ["fpdf.go:fillDrawOp", "fpdf.go:Rect", "fpdf.go:Polygon"]}
{"id": "C54", "title": "Numbers are written exactly to the declared precision", "statement": "Every number written to the file is a plain PDF number (no exponent), within half a unit in the last place of the value.", "quantifier": "all values", "why_tests_cant": "the domain is infinite; a unit test fixes a handful of values, and the counterexamples sit at particular byte combinations", "anchors": ["fpdf.go:outf", "util.go:sprintf"]}
{"id": "C55", "title": "Basic HTML is written with the right text, styles and links", "statement": "HTMLBasicType.Write writes exactly the text tokens in order, each in the style given by the b, i and u tags open at that point, and linked to the href of the a tag seen since the previous text token, if any (so only the first text inside an a element is linked).", "quantifier": "all token sequences", "why_tests_cant": "the domain is infinite; a unit test fixes a handful of values, and the counterexamples sit at particular byte combinations", "anchors": ["htmlbasic.go:HTMLBasicType.Write"]}
{"id": "C56", "title": "Document properties reach the information dictionary", "statement": "In every document written without error and not protected, the string last given to SetTitle (SetSubject, SetAuthor, SetKeywords, SetCreator, SetProducer) is the value of its entry in the information dictionary named by the trailer, in UTF-16 with a byte order mark if it was passed as UTF-8; there is no entry for an empty string or a property never set, except the default producer. In a protected document the first entry (the producer) still reads correctly; the later ones do not.", "quantifier": "all programs, strings and call-backs", "why_tests_cant": "it must hold after every sequence of API calls with every argument, and a test only fixes a few histories", "anchors": ["fpdf.go:SetTitle", "fpdf.go:SetProducer", "fpdf.go:putinfo"]}
{"id": "C57", "title": "The display mode is what was asked for", "statement": "SetDisplayMode accepts exactly the documented zoom and layout modes; in every document written without error the catalog has the page layout last asked for, and opens the first page with the zoom last asked for unless the document has attachments (then it names the wrong object).", "quantifier": "all programs and modes", "why_tests_cant": "it must hold after every sequence of API calls with every argument, and a test only fixes a few histories", "anchors": ["fpdf.go:SetDisplayMode", "fpdf.go:putcatalog"]}
{"id": "C58", "title": "Layers are listed with their names and visibility", "statement": "Every layer added by AddLayer is listed in the catalog at the place of its id, once, is hidden at first if and only if it was added as not visible, has the given name, and is what the content marked with its id belongs to; no other layers are listed; OpenLayerPane makes the reader show the layer pane.", "quantifier": "all programs", "why_tests_cant": "it must hold after every sequence of API calls with every argument, and a test only fixes a few histories", "anchors": ["layer.go:AddLayer", "layer.go:layerPutCatalog", "layer.go:layerPutLayers", "layer.go:OpenLayerPane"]}
{"id": "C59", "title": "The document script is the one last set", "statement": "In every document written without error the catalog names one script, whose text reads as the last argument of SetJavascript, or none if there was none, protected or not.", "quantifier": "all programs and scripts", "why_tests_cant": "it must hold after every sequence of API calls with every argument, and a test only fixes a few histories", "anchors": ["fpdf.go:SetJavascript", "fpdf.go:putjavascript", "fpdf.go:putcatalog"]}
{"id": "C60", "title": "XMP metadata is in the file", "statement": "The last argument of SetXmpMetadata is the content of a metadata stream of the file. (The catalog, however, never refers to it.)", "quantifier": "all programs and metadata", "why_tests_cant": "it must hold after every sequence of API calls with every argument, and a test only fixes a few histories", "anchors": ["fpdf.go:SetXmpMetadata", "fpdf.go:putxmp", "fpdf.go:putcatalog"]}
{"id": "C61", "title": "A protected file can be opened with the passwords, by anyone who reads the file", "statement": "In every document written without error after SetProtection, the trailer names an encryption dictionary from which, with the user password, a reader authenticates and derives the key that decrypts the streams and strings of the document; it accepts the owner password and grants exactly the permissions asked for. Without SetProtection there is no such entry.", "quantifier": "all programs, passwords and flags", "why_tests_cant": "it must hold after every sequence of API calls with every argument, and a test only fixes a few histories", "anchors": ["fpdf.go:SetProtection", "fpdf.go:putencryption", "fpdf.go:puttrailer", "protect.go:setProtection"]}
{"id": "C62", "title": "Drawing a grid gives back the drawing attributes", "statement": "Grid is a sequence of ordinary calls; after it, if no error occurred, colours, line width, font size, transparency and cell margin are what they were before (automatic page breaking and spot colours are not).", "quantifier": "all documents, grids and call-backs", "why_tests_cant": "it must hold after every sequence of API calls with every argument, and a test only fixes a few histories", "anchors": ["grid.go:Grid", "grid.go:StateGet", "grid.go:Put"]}
{"id": "C63", "title": "Pages of a template", "statement": "FromPage gives a template exactly for pages 1 to NumPages, showing that page and otherwise like the original; FromPages gives one for each page, in order, never failing.", "quantifier": "all templates and page numbers", "why_tests_cant": "the domain is infinite; a unit test fixes a handful of values, and the counterexamples sit at particular byte combinations", "anchors": ["template_impl.go:FromPage", "template_impl.go:FromPages", "template_impl.go:NumPages"]}
{"id": "C64", "title": "Gradients are painted as asked", "statement": "LinearGradient and RadialGradient on a page clip to the rectangle asked for, map the unit square to it and paint a shading that in the file is of the kind asked for, between the two colours asked for, along the vector (or towards the circle) asked for; the clipping is undone afterwards.", "quantifier": "all rectangles, colours, vectors, programs and call-backs", "why_tests_cant": "it must hold after every sequence of API calls with every argument, and a test only fixes a few histories", "anchors": ["fpdf.go:LinearGradient", "fpdf.go:RadialGradient", "fpdf.go:gradient", "fpdf.go:putGradients"]}
{"id": "C65", "title": "Links cover the area asked for", "statement": "Link and LinkString put a link annotation on the page they are called on, with the rectangle asked for; it opens the URI given, or leads to the page and height that the last SetLink for that link asked for. A cell with a link has an annotation that covers its text. The link annotations of a page are in the order of the calls, and none is lost.", "quantifier": "all areas, targets, programs and call-backs", "why_tests_cant": "it must hold after every sequence of API calls with every argument, and a test only fixes a few histories", "anchors": ["fpdf.go:Link", "fpdf.go:LinkString", "fpdf.go:newLink", "fpdf.go:SetLink", "fpdf.go:putpages"]}
{"id": "C66", "title": "Page boxes apply to their page and the pages after it", "statement": "SetPageBox accepts exactly the documented box types (in any case); the current page and all pages begun later have the box with the corners asked for, in points from the lower left corner, until the box is set again; no page has a box that was not set for it or an earlier page.", "quantifier": "all box types, rectangles, page numbers, programs and call-backs", "why_tests_cant": "it must hold after every sequence of API calls with every argument, and a test only fixes a few histories", "anchors": ["fpdf.go:SetPageBox", "fpdf.go:SetPageBoxRec", "fpdf.go:beginpage", "fpdf.go:putpages"]}
{"id": "C67", "title": "Justified lines fill the cell", "statement": "With a byte font MultiCell spreads the blanks of each justified line that was broken at a blank so that the line never sticks out of the cell and falls short of its room by less than one em (exact filling is false: whole ems only); lines that end a paragraph or break within a word are not spread. With a UTF-8 font a justified cell is filled exactly.", "quantifier": "all texts, widths, metrics and call-backs", "why_tests_cant": "the domain is infinite; a unit test fixes a handful of values, and the counterexamples sit at particular byte combinations", "anchors": ["fpdf.go:MultiCell", "fpdf.go:CellFormat"]}
{"id": "C68", "title": "Shapes are painted with the colours and line width set last", "statement": "In every program that sets colours and line width outside clipping and transformation regions and does not go back to earlier pages, a reader of any page has in effect the fill colour, drawing colour (or spot colours) and line width set last, whatever pages, page breaks, header and footer functions came in between; so every shape drawn is painted with them. (A colour set inside a clipping region is reported by the getters after ClipEnd but no longer in effect.)", "quantifier": "all histories of calls, colours, widths, header and footer functions", "why_tests_cant": "it must hold after every sequence of API calls with every argument, and a test only fixes a few histories", "anchors": ["fpdf.go:SetFillColor", "fpdf.go:SetDrawColor", "fpdf.go:SetLineWidth", "fpdf.go:AddPageFormat", "spotcolor.go:SetFillSpotColor"]}
{"id": "C69", "title": "Templates are shown where asked for", "statement": "UseTemplateScaled on a portrait page shows a template created with the corner (0, 0) so that each of its points appears at the corner asked for plus its own coordinates scaled to the size asked for, and nothing else of the page changes; the name used leads, in the file, to a form with the contents, the size and the matrix of the template. (For templates created with another corner, and on landscape pages, the position is wrong.)", "quantifier": "all templates, corners, sizes, points, programs and call-backs", "why_tests_cant": "it must hold after every sequence of API calls with every argument, and a test only fixes a few histories", "anchors": ["template.go:UseTemplateScaled", "template.go:putTemplates", "template_impl.go:newTpl"]}
{"id": "C70", "title": "Line styles apply at once and on every later page", "statement": "SetLineCapStyle, SetLineJoinStyle and SetDashPattern select the documented style (butt, round, square; miter, round, bevel; anything else the first) at once on the current page; and every page added later begins with the cap style, join style, line width and dash pattern set last, whatever happened in between. (A header function that sets one of them is not undone, unlike line width and colours.)", "quantifier": "all styles, patterns, programs and call-backs", "why_tests_cant": "it must hold after every sequence of API calls with every argument, and a test only fixes a few histories", "anchors": ["fpdf.go:SetLineCapStyle", "fpdf.go:SetLineJoinStyle", "fpdf.go:SetDashPattern", "fpdf.go:AddPageFormat"]}
{"id": "C71", "title": "Curved shapes and clipping regions are the ones asked for", "statement": "Arc, Ellipse and Circle draw a path that starts on the ellipse at the first angle and follows it in equal steps to the second, by curves with the position and direction of the ellipse at their ends, and paint it once; ArcTo continues the path the same way and leaves the cursor at its end; RoundedRect, Beziergon, ClipRoundedRect, ClipEllipse, ClipPolygon and ClipText produce exactly the outline asked for in page coordinates, painted once or made the clipping region after saving the graphics state.", "quantifier": "all coordinates, radii, angles, styles and documents with a page open", "why_tests_cant": "the domain is infinite; a unit test fixes a handful of values, and the counterexamples sit at particular byte combinations", "anchors": ["fpdf.go:arc", "fpdf.go:Arc", "fpdf.go:ArcTo", "fpdf.go:RoundedRectExt", "fpdf.go:ClipEllipse", "fpdf.go:ClipPolygon", "fpdf.go:ClipText", "fpdf.go:Beziergon"]}
{"id": "C72", "title": "TtfParse reads the widths and the character map of a font", "statement": "Widths has the advance width of every glyph, the last record of the table hmtx applying to the glyphs after it (a font with glyphs but without records makes TtfParse panic). Chars maps exactly the characters to which the standard assigns a glyph by the Unicode sub-table (platform Windows, format 4), to that glyph, except that characters whose sum with idDelta is negative are lost. Fonts without such a sub-table are refused.", "quantifier": "all files, glyph counts, character maps and characters below U+FFFF", "why_tests_cant": "the domain is infinite; a unit test fixes a handful of values, and the counterexamples sit at particular byte combinations", "anchors": ["ttfparser.go:ParseHmtx", "ttfparser.go:ParseCmap"]}
