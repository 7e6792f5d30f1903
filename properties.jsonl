{"id": "C01", "title": "Raster page body round-trip", "statement": "Encoding a page bitmap with bmp_to_pwg and decoding the produced page body with raster_to_bmp (same bytes per line, height and chunk size) returns the original bitmap byte for byte when no back-side flip applies, and stops exactly at the end of the page body so that whatever follows in the stream is untouched.", "quantifier": "for every bitmap of every size (height, bytes per line), every color mode's chunk size, every following byte string, PWG and URF decoding", "why_tests_cant": "The run-length encoder has run limits (128 repeats, 127 literals, 256 identical lines) and switches between modes on data content; the space of bitmaps is unbounded and the unit tests check one 8x8 picture and a few hand-made lines.", "anchors": ["lib/ppm2pwg.cpp:bmp_to_pwg", "lib/ppm2pwg.cpp:compress_line", "lib/pwg2ppm.cpp:raster_to_bmp"]}
{"id": "C02", "title": "PWG file round-trip for whole documents", "statement": "The file made of the PWG file header followed by any number of pages written by bmp_to_pwg is decoded by the pwg2ppm page loop into the same number of pages, in order, each with the geometry and the (possibly flipped) pixel data that was encoded, with no bytes left over.", "quantifier": "for every number of pages, every bitmap, every set of print parameters with 8-bit or 1-bit colors", "why_tests_cant": "Page boundaries are implicit (no lengths in the format); a mis-synchronisation by one byte on some rare content corrupts all later pages. Tests decode single pages only.", "anchors": ["lib/ppm2pwg.cpp:make_pwg_file_hdr", "lib/ppm2pwg.cpp:make_pwg_hdr", "lib/ppm2pwg.cpp:bmp_to_pwg", "utils/pwg2ppm_main.cpp:main"]}
{"id": "C03", "title": "URF file round-trip for whole documents", "statement": "The file made of the URF file header followed by any number of pages written by bmp_to_pwg with URF format is decoded by the pwg2ppm page loop into the same pages in order; the page count of the file header is the one given.", "quantifier": "for every number of pages, every bitmap, every URF-capable parameter set (8- and 16-bit)", "why_tests_cant": "Same as C02; URF additionally gives code 128 a special meaning that must never be produced by accident.", "anchors": ["lib/ppm2pwg.cpp:make_urf_file_hdr", "lib/ppm2pwg.cpp:make_urf_hdr", "utils/pwg2ppm_main.cpp:main"]}
{"id": "C04", "title": "Back sides are transformed exactly as duplex mode and printer demand", "statement": "The decoded pixels of a page are the given bitmap, mirrored left-right iff the page is a back side (two-sided and even page number) and the back transform demands it, and mirrored top-bottom iff the back side demands it; the demand table over (duplex mode, back transform) is the PWG 5102.4 one: long-edge: flipped=>V, rotated=>H+V; short-edge: flipped=>H, manual-tumble=>H+V; otherwise none. Pixels are never altered inside.", "quantifier": "for every bitmap, page number, duplex mode, back transform mode and color mode (1-bit modes: widths that are multiples of 8)", "why_tests_cant": "Combination of four transforms with arbitrary images, chunk sizes and sizes; tests cover one image.", "anchors": ["lib/ppm2pwg.cpp:bmp_to_pwg", "lib/printparameters.cpp:getBackHFlip", "lib/printparameters.cpp:getBackVFlip"]}
{"id": "C05", "title": "Mirrored 1-bit pages keep the image aligned for any width", "statement": "Mirroring a 1-bit back side mirrors the pixels of the page (columns 0..width-1), leaving padding bits at the end of the line.", "quantifier": "for every 1-bit bitmap of every pixel width, also widths that are not multiples of 8", "why_tests_cant": "Needs a width that is not a multiple of 8 together with 1-bit color and a horizontally flipped back side; nobody enumerates that.", "anchors": ["lib/ppm2pwg.cpp:bmp_to_pwg:80-100", "lib/printparameters.cpp:getPaperSizeWInBytes"]}
{"id": "C06", "title": "PWG page header describes the raster that follows", "statement": "The PWG page header is exactly 1796 bytes; decoding it gives back every field; BytesPerLine, Width, Height, BitsPerColor, BitsPerPixel, NumColors and ColorSpace describe precisely the body that follows, and a reader that uses only the header's fields can find the end of the page.", "quantifier": "for every parameter set whose numbers fit their fields and whose strings fit 64 bytes", "why_tests_cant": "A wrong width in one of ~50 fields is invisible unless every parameter combination is tried.", "anchors": ["lib/pwgpghdr.codable", "lib/ppm2pwg.cpp:make_pwg_hdr"]}
{"id": "C07", "title": "Header transform fields agree with what was done to the pixels", "statement": "CrossFeedTransform is -1 exactly when the body's pixels were mirrored left-right, FeedTransform is -1 exactly when they were mirrored top-bottom, otherwise both are 1; front sides are always (1, 1).", "quantifier": "for every page number, duplex mode, back transform mode and bitmap", "why_tests_cant": "The header and the body are produced by separate code from the same flags; agreement must hold for all combinations and all page numbers.", "anchors": ["lib/ppm2pwg.cpp:make_pwg_hdr:231-232", "lib/ppm2pwg.cpp:bmp_to_pwg"]}
{"id": "C08", "title": "Compressed output uses only the portable opcodes and has bounded size", "statement": "The encoder's control bytes are always 0..127 (repeat) or 130..255 (literal); never 128 (which URF readers treat as fill-with-white) nor 129, and the literal payload is never split mid-pixel; an encoded line of n chunks is never longer than the line plus (n+2)/3 control bytes, and this bound is attained.", "quantifier": "for every line, every chunk size that divides it", "why_tests_cant": "Opcodes depend on content in runs of up to 128; a corner such as 127 distinct chunks followed by an equal one cannot be covered exhaustively.", "anchors": ["lib/ppm2pwg.cpp:compress_line"]}
{"id": "C09", "title": "Raster decoding of arbitrary (corrupt or hostile) data always ends", "statement": "raster_to_bmp on arbitrary input data and header values ends: it either produces whole lines or reports an error by exception; it never loops for ever.", "quantifier": "for every byte string and every byte width, height, chunk size, PWG or URF", "why_tests_cant": "Arbitrary byte strings are an unbounded input space; termination is not observable by a test that passes.", "anchors": ["lib/pwg2ppm.cpp:raster_to_bmp"]}
{"id": "C10", "title": "pwg2ppm reads the 16-bit PWG files that ppm2pwg writes", "statement": "A 16-bit-per-color PWG page written by bmp_to_pwg is decoded to the same bytes by the pwg2ppm page loop.", "quantifier": "for every 16-bit bitmap", "why_tests_cant": "Encoder and decoder choose the chunk size in different places; no test covers 16-bit decode.", "anchors": ["lib/ppm2pwg.cpp:bmp_to_pwg:60", "utils/pwg2ppm_main.cpp:37"]}
{"id": "C11", "title": "URF pages are refused when URF cannot express them", "statement": "bmp_to_pwg with URF format either emits a page whose 32-byte header expresses the parameters exactly (bits per pixel, color space, duplex, quality, media type, width, height, resolution) or throws without emitting any byte of the page; it throws exactly when the resolution is asymmetric, the color mode is a black or 1-bit one, or the media type is not a URF one.", "quantifier": "for every parameter set", "why_tests_cant": "Cross product of color modes, resolutions and arbitrary media type strings.", "anchors": ["lib/ppm2pwg.cpp:make_urf_hdr", "lib/ppm2pwg.cpp:isUrfMediaType", "lib/urfpghdr.codable"]}
{"id": "C12", "title": "RGB to CMYK and back is lossless", "statement": "The CMYK values that pdf2printable produces for a pixel are turned back by pwg2ppm's cmyk2rgb into the same RGB value; each CMYK pixel uses maximal black generation (min(c,m,y)=0).", "quantifier": "for every RGB pixel and every image", "why_tests_cant": "16.7M pixels per color times arbitrary images; and the two formulas live in different programs.", "anchors": ["lib/pdf2printable.cpp:copy_raster_buffer", "lib/pwg2ppm.cpp:cmyk2rgb"]}
{"id": "C13", "title": "ppm2pwg forwards the pixels of the input picture unaltered", "statement": "For a binary PNM stream, the bitmap handed to the raster encoder for each page is exactly the pixel data that follows that page's PNM header, for each of the concatenated pages.", "quantifier": "for every sequence of well-formed P4/P5/P6 pages and every pixel content", "why_tests_cant": "Comment skipping and whitespace rules interact with arbitrary binary pixel data.", "anchors": ["utils/ppm2pwg_main.cpp:main", "utils/ppm2pwg_main.cpp:ignore_comments"]}
{"id": "C14", "title": "Page range expressions mean what they say", "statement": "parsePageRange accepts exactly the comma separated, strictly ascending, non-overlapping lists of pages / from-to / from- ranges with positive numbers and returns exactly the denoted ranges; everything else gives the empty list.", "quantifier": "for every string", "why_tests_cant": "Strings are unbounded; tests have about 20 samples.", "anchors": ["lib/printparameters.cpp:parsePageRange"]}
{"id": "C15", "title": "Page sequence contains exactly the requested pages, in order", "statement": "With one copy, getPageSequence(n) is the concatenation of the requested ranges clipped to n (all pages 1..n when no range is given), in request order; it never contains a page outside 1..n when ranges come from parsePageRange, and is strictly ascending.", "quantifier": "for every page count and every list of ranges", "why_tests_cant": "Unbounded ranges and counts.", "anchors": ["lib/printparameters.cpp:getPageSequence"]}
{"id": "C16", "title": "Copies: every page is printed exactly the requested number of times and copies never share a sheet", "statement": "With k copies, each selected page occurs exactly k times (plus only blank filler pages when two-sided); collated order is k identical runs; in two-sided mode each copy starts on a front side, so that every page is on the same side (front/back) in each copy; uncollated two-sided output repeats whole sheets.", "quantifier": "for every page selection, copy count, collation and duplex mode", "why_tests_cant": "Counts are unbounded, padding interacts with parity.", "anchors": ["lib/printparameters.cpp:getPageSequence", "lib/pdf2printable.cpp:pdf_to_printable"]}
{"id": "C17", "title": "Paper size names are parsed exactly", "statement": "setPaperSize accepts exactly the self-describing media names <name>_<w>x<h>(mm|in) and sets width, height and unit to the denoted decimal numbers; any other string is rejected and leaves the parameters unchanged.", "quantifier": "for every string", "why_tests_cant": "Regex over unbounded strings with decimals.", "anchors": ["lib/printparameters.cpp:setPaperSize"]}
{"id": "C18", "title": "Row size in bytes is the exact packing of the row's pixels", "statement": "getPaperSizeWInBytes is the least whole number of bytes that holds width * colors * bits-per-color bits, and a page bitmap has exactly height times that many bytes; for all color modes bits per pixel = colors * bits per color.", "quantifier": "for every width and color mode", "why_tests_cant": "Rounding for 1-bit must be right for every width.", "anchors": ["lib/printparameters.cpp:getPaperSizeWInBytes", "lib/printparameters.cpp:getPaperSizeInBytes"]}
{"id": "C19", "title": "Text documents get CR LF line ends", "statement": "The text/plain converter turns every line end of the input, be it LF or CR LF, into exactly one CR LF and changes nothing else.", "quantifier": "for every text", "why_tests_cant": "Unbounded texts; the behaviour on CR LF depends on a two-character separator inside a generic helper.", "anchors": ["lib/converter.h:FixupText", "lib/stringutils.h:split_string"]}
{"id": "C20", "title": "Splitting and joining strings are inverse", "statement": "Joining the pieces of split_string with the same single-character separator gives the original string, no piece contains the separator, and splitting a joined list of separator-free pieces gives that list.", "quantifier": "for every string, every list of strings, every one-character separator", "why_tests_cant": "Unbounded strings.", "anchors": ["lib/stringutils.h:split_string", "lib/stringutils.h:join_string"]}
{"id": "C21", "title": "IPP messages survive encode/decode", "statement": "Decoding an encoded IPP message yields the same version, operation/status, and the same operation, job and printer attributes (with arbitrarily nested collections and multi-valued attributes), and leaves the read position exactly after the message so that document data following it is intact.", "quantifier": "for every well-typed message: any attributes, any nesting depth, any number of job groups, any trailing document data", "why_tests_cant": "Recursive data of unbounded depth and width; the format uses implicit ends (empty names, next-tag look-ahead).", "anchors": ["lib/ippmsg.cpp:encode", "lib/ippmsg.cpp:IppMsg(Bytestream&)", "lib/ippmsg.cpp:encodeAttribute", "lib/ippmsg.cpp:collectAttributes"]}
{"id": "C22", "title": "Required operation attributes are first on the wire, in order", "statement": "In an encoded request the operation group starts with attributes-charset, attributes-natural-language, then printer-uri, job-id, requesting-user-name (those present, in this order), and every attribute of the message is encoded exactly once.", "quantifier": "for every set of operation attributes", "why_tests_cant": "Subsets and orders of attribute maps are unbounded.", "anchors": ["lib/ippmsg.cpp:encode:64-106"]}
{"id": "C23", "title": "IPP decoding of arbitrary data ends without undefined behaviour", "statement": "Decoding any byte string either yields a message or throws; it never loops for ever and never reads memory it should not.", "quantifier": "for every byte string", "why_tests_cant": "Hostile data space is unbounded; undefined behaviour is not observable by passing tests.", "anchors": ["lib/ippmsg.cpp:collectAttributes", "lib/ippmsg.cpp:getUnnamedAttributes"]}
{"id": "C24", "title": "Attribute groups of a received message are all reported", "statement": "Every attribute of every operation/job/printer group in the received bytes is reported in the decoded message: job groups stay separate and in order; for a repeated attribute name within a group the first value wins; a message without end-of-attributes tag is not silently truncated.", "quantifier": "for every sequence of groups", "why_tests_cant": "Sequences of groups are unbounded and the flush happens only at the next delimiter.", "anchors": ["lib/ippmsg.cpp:IppMsg(Bytestream&)"]}
{"id": "C25", "title": "Successive requests carry distinct request ids", "statement": "The n-th message encoded by a process carries a request id differing from those of the 2^32-1 messages before it; encoding is otherwise a function of the message.", "quantifier": "for every sequence of encodings", "why_tests_cant": "Histories are unbounded.", "anchors": ["lib/ippmsg.cpp:encode", "lib/ippmsg.h:_reqId"]}
{"id": "C26", "title": "IPP attributes survive JSON", "statement": "Converting an attribute value to JSON and back yields the same attribute (tag and value), for all value kinds.", "quantifier": "for every well-typed attribute value, any nesting", "why_tests_cant": "Recursive values.", "anchors": ["lib/ippattr.cpp:toJSON", "lib/ippattr.cpp:fromJSON"]}
{"id": "C27", "title": "Job settings behave as independent variables", "statement": "After any sequence of set/unset operations on a job's settings (some live inside the media-col collection), each setting reads as the last value set for it, or its default when unset; operations on one setting never change another; unsetting the last media-col member removes the collection.", "quantifier": "for every sequence of operations on every settings list", "why_tests_cant": "Interleavings of operations are unbounded; sharing of the sub-collection is the risk.", "anchors": ["lib/setting.h:Setting", "lib/ippprintjob.h"]}
{"id": "C28", "title": "Saved settings restore to the same settings", "statement": "restoreSettings applied to what saveSettings stored makes every previously set setting of a fresh job equal to the saved one, and leaves settings which were not saved as they were.", "quantifier": "for every set of settings", "why_tests_cant": "Arbitrary nested attributes.", "anchors": ["lib/ippprintjob.cpp:saveSettings", "lib/ippprintjob.cpp:restoreSettings"]}
{"id": "C29", "title": "Conversion lookup is coherent", "statement": "A target format returned for an input format is one the printer supports and for which a conversion function exists; it is the target of the first matching pipeline; an input format is advertised as possible exactly when a target format is found for it; this holds for user-registered pipelines as well.", "quantifier": "for every pipeline list, input format and supported-format list", "why_tests_cant": "Pipelines are an open, user-extensible list.", "anchors": ["lib/converter.h:getConvertFun", "lib/converter.h:getTargetFormat", "lib/converter.h:possibleInputFormats"]}
{"id": "C30", "title": "The job's document-format is one the printer accepts", "statement": "After a successful finalize, the document-format attribute, if sent, is a format which the printer lists as supported, or else the generic octet-stream.", "quantifier": "for every printer attribute set, job settings and input format", "why_tests_cant": "Printer attribute sets are open-ended.", "anchors": ["lib/ippprintjob.cpp:finalize", "lib/ippprintjob.cpp:determineTargetFormat"]}
{"id": "C31", "title": "Copies are made exactly once", "statement": "For raster output the number of copies requested is applied either by the printer (copies attribute sent, one local copy) or locally (no copies attribute, page sequence has the copies), never both and never neither.", "quantifier": "for every printer attribute set and every number of copies", "why_tests_cant": "Depends on several printer capability attributes and formats.", "anchors": ["lib/ippprintjob.cpp:adjustRasterSettings"]}
{"id": "C32", "title": "Page ranges are applied exactly once", "statement": "If the input is PDF, requested page ranges are applied locally and are not sent to the printer; otherwise they are left to the printer and not applied locally.", "quantifier": "for every page range list, printer attributes and input format", "why_tests_cant": "As C31.", "anchors": ["lib/ippprintjob.cpp:finalize"]}
{"id": "C33", "title": "Raster resolution is a supported one, nearest to the request", "statement": "For PWG output, the resolution used is a printer-supported one (dpi) and no supported one is nearer to the requested resolution; for URF it is a symmetric resolution listed by the printer, nearest to the request; and when the printer lists none the request is used unchanged (made symmetric for URF).", "quantifier": "for every resolution list and every request", "why_tests_cant": "Lists are unbounded, tie and rounding behaviour.", "anchors": ["lib/ippprintjob.cpp:adjustRasterSettings"]}
{"id": "C34", "title": "Back-side transform follows the printer's declaration", "statement": "The back-side transform used for PWG/URF output is the one the printer declares in pwg-raster-document-sheet-back / urf-supported (DM1..DM4).", "quantifier": "for every printer attribute set", "why_tests_cant": "Attribute combinations.", "anchors": ["lib/ippprintjob.cpp:adjustRasterSettings"]}
{"id": "C35", "title": "Duplex request is honoured unless the job is a single page", "statement": "A two-sided request is kept for a document of more than one selected page, and only changed to one-sided when all sheets would carry the same single page.", "quantifier": "for every page count (including unknown), range list, copies and printer attributes", "why_tests_cant": "Interaction of five inputs.", "anchors": ["lib/ippprintjob.cpp:adjustRasterSettings"]}
{"id": "C36", "title": "Transport compression is one the printer supports, and only for raster", "statement": "The compression attribute is sent only for raster targets and only with a value the printer lists; gzip is preferred; user-set values are kept.", "quantifier": "for every printer attribute set and target format", "why_tests_cant": "Attribute combinations.", "anchors": ["lib/ippprintjob.cpp:finalize"]}
{"id": "C37", "title": "Input formats advertised by a printer object can be printed with it", "statement": "Every format listed by possibleInputFormats can be used in runJob: a target format is found for it.", "quantifier": "for every printer attribute set (including formats guessed from the device id)", "why_tests_cant": "Job objects are copied on the way; the data flow spans three classes.", "anchors": ["lib/ippprinter.cpp:runJob", "lib/ippprintjob.h:operator=", "lib/ippprinter.cpp:possibleInputFormats"]}
{"id": "C38", "title": "Streaming upload delivers exactly the written bytes, in order, under every scheduling", "statement": "The bytes handed to the HTTP client by the upload object are a prefix of the concatenation of all written blocks, in order, without loss or duplication, at every moment and under every interleaving of writer and network threads and every buffer size; when the end of data is signalled, everything written has been delivered.", "quantifier": "for every interleaving, block sequence and buffer size sequence", "why_tests_cant": "Thread schedules are unbounded; tests exercise none.", "anchors": ["lib/curlrequester.cpp:write", "lib/curlrequester.cpp:requestWrite", "lib/curlrequester.cpp:await", "lib/lthread.h"]}
{"id": "C39", "title": "Streaming upload never deadlocks and end-of-data is sent only after await", "statement": "In every reachable state of writer and network thread at least one can make progress until the transfer is finished; the end-of-data signal is never given while the writer may still write; a write after the network thread ended returns false instead of blocking.", "quantifier": "for every interleaving", "why_tests_cant": "As C38.", "anchors": ["lib/curlrequester.cpp"]}
{"id": "C40", "title": "Compression covers the document only", "statement": "With transport compression the IPP header is sent verbatim, and the document bytes pass through the compressor exactly once, in order, and the compressor is finished exactly once.", "quantifier": "for every interleaving, block sequence and buffer size sequence", "why_tests_cant": "As C38.", "anchors": ["lib/curlrequester.cpp:setCompression", "lib/curlrequester.cpp:requestWrite", "lib/ippprinter.cpp:doPrint"]}
{"id": "C41", "title": "Name decoding of DNS messages ends on every input", "statement": "Decoding a compressed DNS name ends for every message (also with pointer loops), giving a name or an exception.", "quantifier": "for every byte string and position", "why_tests_cant": "Pointer graphs are unbounded.", "anchors": ["lib/ippdiscovery.cpp:get_addr"]}
{"id": "C42", "title": "DNS queries carry the asked names", "statement": "A query sent for a list of names decodes (per the DNS compression rules) to exactly these names with the given type, for every list of names.", "quantifier": "for every list of names with labels of 1..63 bytes", "why_tests_cant": "Suffix compression shares data between names; unbounded lists.", "anchors": ["lib/ippdiscovery.cpp:sendQuery", "lib/ippdiscovery.cpp:get_addr"]}
{"id": "C43", "title": "Each printer is reported at most once", "statement": "Over the whole life of a discovery, whatever responses arrive in whatever order, no address is reported twice.", "quantifier": "for every sequence of responses", "why_tests_cant": "Histories are unbounded.", "anchors": ["lib/ippdiscovery.cpp:update"]}
{"id": "C44", "title": "A printer reachable by IPPS is not also reported as IPP", "statement": "If a printer (same IP address and resource path) has been reported with ipps, it is not also reported with ipp.", "quantifier": "for every sequence of responses", "why_tests_cant": "Histories.", "anchors": ["lib/ippdiscovery.cpp:update"]}
{"id": "C45", "title": "Command line parsing accounts for every argument", "statement": "If parsing succeeds, the command line is a sequence of option groups each matching a declared option with its value, followed by the positional arguments, each consumed exactly once and assigned to its variable (last occurrence wins); otherwise it fails with an error message.", "quantifier": "for every command line and every option declaration list", "why_tests_cant": "Argument lists are unbounded.", "anchors": ["lib/argget.h:get_args"]}
{"id": "C46", "title": "bsplit splits without loss", "statement": "For any file and any 1 <= k <= size, the first k bytes (--head k) followed by the rest (--tail -k) are the file, and likewise --head -k and --tail k.", "quantifier": "for every file and k", "why_tests_cant": "Unbounded files; signed arithmetic on sizes.", "anchors": ["utils/bsplit.cpp"]}
{"id": "C47", "title": "File type detection is determined by the documented magic numbers", "statement": "getMimeType returns a type exactly when the file starts with that type's magic number; TIFF files are recognised by the 4-byte magic numbers.", "quantifier": "for every file content", "why_tests_cant": "Unbounded contents; embedded NUL characters in string literals.", "anchors": ["lib/minimime.cpp"]}
{"id": "C48", "title": "PDF printing streams the right pages", "statement": "pdf_to_printable writes the file header, then one page per element of the page sequence, in order, each rendered from the source page it names (blank for filler), with front/back determined by its position, and reports progress monotonically up to the total; it stops with an error at the first failed write.", "quantifier": "for every document, page sequence, renderer output and write-callback behaviour", "why_tests_cant": "Unbounded documents and failure positions.", "anchors": ["lib/pdf2printable.cpp:pdf_to_printable"]}
{"id": "C49", "title": "Dithering stays in bounds", "statement": "Conversion to 1-bit never reads or writes outside its buffers, its error terms stay within fixed bounds regardless of image size (no integer overflow), and white and black areas stay white and black.", "quantifier": "for every image of every size", "why_tests_cant": "Error diffusion accumulates state over the whole image.", "anchors": ["lib/pdf2printable.cpp:copy_raster_buffer"]}
{"id": "C50", "title": "Scaled pages are centred and fit the paper", "statement": "The scale/offset computed for a page keeps the aspect ratio, centres the page, and the scaled page lies within the paper.", "quantifier": "for every page size, paper size and resolution", "why_tests_cant": "Continuous input space; rounding.", "anchors": ["lib/pdf2printable.cpp:fixup_scale"]}
{"id": "C51", "title": "Supplies are paired with their own levels", "statement": "The supply list reported for a printer has one entry per named marker, each with the level, limits, type and colors at the same position of the printer's parallel attribute lists, and never reads past any of them.", "quantifier": "for every printer attribute set with lists of any lengths", "why_tests_cant": "Parallel lists of unequal length.", "anchors": ["lib/ippprinter.cpp:supplies"]}
{"id": "C52", "title": "The request sent matches what the printer can do", "statement": "runJob uses Create-Job + Send-Document when the printer supports both operations (unless one-stage was requested), otherwise Print-Job; job attributes are sent in exactly one of them; no document is sent when job creation fails.", "quantifier": "for every printer attribute set and response", "why_tests_cant": "Branching over attributes and responses.", "anchors": ["lib/ippprinter.cpp:runJob"]}
{"id": "C53", "title": "Throttling of DNS queries", "statement": "A name is not asked again for the same record type within two seconds, every other name is asked, and ageing out of old entries is free of undefined behaviour.", "quantifier": "for every history of queries and times", "why_tests_cant": "Histories; iterator invalidation is not observable by tests.", "anchors": ["lib/ippdiscovery.cpp:sendQuery"]}
{"id": "C54", "title": "Supported-value checks agree with the printer's declared values", "statement": "isSupportedValue of a setting is true exactly for the values in the printer's list (for ranges: within the range; for preferred choices: in either list).", "quantifier": "for every printer attribute set and value", "why_tests_cant": "Unbounded lists and ranges.", "anchors": ["lib/setting.h"]}
{"id": "C55", "title": "Supply percentages are defined and in range", "statement": "The percentage shown for a supply is an integer from 0 to 100, rounded down, for a level between 0 and the highest level; and computing it is never undefined behaviour.", "quantifier": "for every supply", "why_tests_cant": "2^96 combinations of levels; the undefined conversions are not observable in tests.", "anchors": ["lib/ippprinter.cpp:getPercent"]}
{"id": "C56", "title": "Firmware versions and warning states", "statement": "Each firmware name is reported with the version at the same position; the printer counts as in a warning state exactly if it is stopped or has a state reason that is neither none nor a report.", "quantifier": "for every printer attribute set", "why_tests_cant": "Lists of any lengths and contents.", "anchors": ["lib/ippprinter.cpp:firmware", "lib/ippprinter.cpp:isWarningState"]}
{"id": "C57", "title": "The document sent is what the converter produced", "statement": "When runJob reports success, the document that was sent is the concatenation of the blocks that the converter for the chosen target wrote, in order, and its end was signalled.", "quantifier": "for every printer, job, converter behaviour and reply", "why_tests_cant": "Converters and replies are arbitrary.", "anchors": ["lib/ippprinter.cpp:runJob", "lib/ippprinter.cpp:doPrint"]}
{"id": "C58", "title": "A failed conversion does not complete the document", "statement": "When the conversion fails midway, the failure is reported and the truncated document is not ended as if it were complete.", "quantifier": "for every printer, job and converter behaviour", "why_tests_cant": "Depends on what the destructor of the transfer object does; no network tests.", "anchors": ["lib/ippprinter.cpp:doPrint", "lib/curlrequester.cpp:~CurlIppPosterBase", "lib/ippprinter.cpp:doPrintToFile"]}
{"id": "C59", "title": "Every fully known printer is reported", "statement": "After each response, every announced printer whose target, port, path and addresses are known has been reported: with ipps when announced for ipps; with ipp when announced for ipp, unless that response made it known under ipps with the same address and path.", "quantifier": "for every sequence of responses", "why_tests_cant": "Histories are unbounded; records may arrive in any order and over several responses.", "anchors": ["lib/ippdiscovery.cpp:update", "lib/ippdiscovery.cpp:discover"]}
{"id": "C60", "title": "Raster pages of any encoder are read as what they mean", "statement": "raster_to_bmp reads every page of well-formed codes (repeat codes 0..127, literal codes 129..255, in URF also the fill code 128 = white to the end of the row; rows repeated up to 256 times) as exactly the pixels the codes stand for, not only pages written by this project's encoder, and leaves what follows untouched.", "quantifier": "for every sequence of codes, every page size, pixel size and color space", "why_tests_cant": "The codes of a page can be chosen in unboundedly many ways; tests only read what the encoder writes, which never uses some of the codes.", "anchors": ["lib/pwg2ppm.cpp:raster_to_bmp"]}
{"id": "C61", "title": "ppm2pwg followed by pwg2ppm gives the pictures back", "statement": "Pictures that go through ppm2pwg (by way of PWG or URF) and then through pwg2ppm come back as one file per page, numbered in order, well-formed, with the size and exactly the pixels of the original.", "quantifier": "for every sequence of pictures of every size and content", "why_tests_cant": "The chain runs through two programs with three formats; pictures are unbounded.", "anchors": ["utils/ppm2pwg_main.cpp:main", "utils/pwg2ppm_main.cpp:main", "lib/pwg2ppm.cpp:write_ppm"]}
{"id": "C62", "title": "8-bit bitmaps carry the values of the rendered pixels", "statement": "copy_raster_buffer gives one byte per pixel in gray (its luminosity, not above it and at most one below) and black (what is missing to 255, likewise), and exactly red, green and blue in sRGB; white paper takes no ink and black takes all of it.", "quantifier": "for every image of every size and every rounding of the luminosity", "why_tests_cant": "16.7M pixel values times arbitrary images; floating point rounding.", "anchors": ["lib/pdf2printable.cpp:copy_raster_buffer"]}
{"id": "C63", "title": "Job settings reach the print parameters and the printer", "statement": "finalize maps print-quality, print-color-mode, media-type and media-source (from the job, else the printer's default) to the raster's quality, color mode, media type and media position, and sends all attributes that it does not take care of itself exactly as they were asked for.", "quantifier": "for every printer description, every combination of settings and every input format", "why_tests_cant": "Settings, defaults and supported values combine freely; keywords are open sets.", "anchors": ["lib/ippprintjob.cpp:IppPrintJob::finalize"]}
{"id": "C64", "title": "Paper and margins are sent once and with the right size", "statement": "The print parameters get the paper named by the job, else by the printer's default; margins are taken out of media-col and effected locally unless the target is an image; media and media-col are never both sent: when both are set, media-col carries the paper's size in 1/100 mm; all other members of media-col stay.", "quantifier": "for every job, every media-col and every paper size name", "why_tests_cant": "Collections are open-ended; the size goes through floating point, where single papers fall off by one.", "anchors": ["lib/ippprintjob.cpp:IppPrintJob::finalize", "lib/printparameters.cpp:setPaperSize"]}
{"id": "C65", "title": "Paper sizes in pixels, millimeters and points", "statement": "A paper is as many pixels wide and high as fit at the resolution of that direction; its size in millimeters and points is that of its name to 1/100.", "quantifier": "for every paper size name and every pair of resolutions, in double precision arithmetic", "why_tests_cant": "Floating point: errors show up only for single sizes at single resolutions.", "anchors": ["lib/printparameters.cpp:getPaperSizeWInPixels", "lib/printparameters.cpp:getPaperSizeWInMillimeters", "lib/printparameters.cpp:getPaperSizeWInPoints"]}
{"id": "C66", "title": "Responses are turned into the addresses of the printers they tell of", "statement": "Whatever well-formed DNS responses arrive, with the PTR, SRV, TXT and A records of a printer split over them and ordered in any way: its address (scheme, IPv4 address, port unless usual, path from the last rp) is reported, and nothing else is reported.", "quantifier": "for all sequences of well-formed responses, with any compression of names, any other records among them, and any times", "why_tests_cant": "Orders, splits, compression and foreign records combine without end.", "anchors": ["lib/ippdiscovery.cpp:IppDiscovery::discover", "lib/ippdiscovery.cpp:get_addr", "lib/ippdiscovery.cpp:IppDiscovery::update"]}
{"id": "C67", "title": "What responses leave open is asked for", "statement": "The first query is for the two services; for each announced printer without TXT or SRV record, and for each SRV target without address, a query of that type has been sent; no query is empty, and each is sent as the datagram for its type and names.", "quantifier": "for all sequences of well-formed responses and any times of arrival", "why_tests_cant": "Depends on the order and timing of responses, with throttling in between.", "anchors": ["lib/ippdiscovery.cpp:IppDiscovery::updateAndQueryPtrs", "lib/ippdiscovery.cpp:IppDiscovery::sendQuery", "lib/ippdiscovery.cpp:IppDiscovery::discover"]}
{"id": "C68", "title": "Attributes of a printer are set as asked for", "statement": "setAttributes sends one Set-Printer-Attributes request whose printer attributes are exactly those asked for, each with the value that the text spells in the type the printer uses for the attribute; a text that spells no such value, or a type that is not supported, is refused without a request.", "quantifier": "for every printer description, every list of names and texts and every reply", "why_tests_cant": "Attribute names, types and texts are open sets.", "anchors": ["lib/ippprinter.cpp:IppPrinter::setAttributes", "lib/ippattr.cpp:IppAttr::fromString"]}
{"id": "C69", "title": "A refused request is reported", "statement": "When the printer cannot be reached or refuses a request (cancel a job, list jobs, identify, set or get attributes), an error is reported, and cancelling and identifying send the request they should.", "quantifier": "for every printer, every job id and every reply", "why_tests_cant": "Replies are arbitrary; no tests with a printer.", "anchors": ["lib/ippprinter.cpp:IppPrinter::cancelJob", "lib/ippprinter.cpp:IppPrinter::identify", "lib/ippprinter.cpp:IppPrinter::_doRequest"]}
{"id": "C70", "title": "Jobs are listed as the printer reports them", "statement": "getJobs sends one Get-Jobs request and gives for each group of job attributes in the response, in order, the id, name, state, reasons and so on that the group has, with defaults for those that it does not have; cancelJob sends the id that was given.", "quantifier": "for every response with any number of jobs", "why_tests_cant": "Responses are unbounded.", "anchors": ["lib/ippprinter.cpp:IppPrinter::getJobs", "lib/ippprinter.cpp:IppPrinter::cancelJob"]}
{"id": "C71", "title": "Refreshing gives the attributes of the printer, with overrides", "statement": "refresh gives the printer the attributes of the last printer group in the reply to Get-Printer-Attributes, or of the file (JSON or IPP) of a fake printer, where every attribute that a rule for this printer overrides is that of the last such rule; a printer that cannot be reached has none and the error is reported.", "quantifier": "for every reply, every file and every set of rules", "why_tests_cant": "Rules and attributes combine without end; files of printers are not in the tests.", "anchors": ["lib/ippprinter.cpp:IppPrinter::refresh", "lib/ippprinter.cpp:IppPrinter::_applyOverrides"]}
{"id": "C72", "title": "Formats are guessed from the device id", "statement": "The guessed formats are exactly those of PDF, PostScript, PWG and URF that the printer does not list and whose names occur in its device id; a new job has them.", "quantifier": "for every printer description", "why_tests_cant": "Device ids are free text.", "anchors": ["lib/ippprinter.cpp:IppPrinter::additionalDocumentFormats", "lib/ippprinter.h:IppPrinter::createJob"]}
{"id": "C73", "title": "The command line of ippclient means what its options say", "statement": "print with any mix of options in any order takes, for each option, the value that was given last (converted as the option's type says) and the two arguments as address and file, and starts printing with them; a command line that cannot be accounted for by a sub-command's options and arguments ends with 1 (with 0 if help is asked for) without anything being sent; help is shown for every sub-command.", "quantifier": "for every command line", "why_tests_cant": "29 options in any order, number and spelling; the command line of ippclient is not in the tests.", "anchors": ["utils/ippclient.cpp:main", "utils/argget.h:SubArgGet::get_args"]}
{"id": "C74", "title": "The other sub-commands ask for one thing and report how it went", "statement": "identify, set-attrs, get-jobs and cancel-job send, after the request for the attributes, exactly the request that they stand for with what was given on the command line; get-attrs shows the printer's attributes; a printer that cannot be reached ends every sub-command with 1 after one request; wrong arguments are refused without a request; cancel-job ends with 0 exactly if the printer confirms.", "quantifier": "for every command line, printer and reply", "why_tests_cant": "The client is not in the tests; replies and arguments are unbounded.", "anchors": ["utils/ippclient.cpp:main"]}
{"id": "C75", "title": "The options of print become the attributes of the job", "statement": "Each value asked for with an option of print is at the attribute (or member of media-col) that it stands for, the specific margin and resolution options winning over the general ones, and nothing else changes from the restored settings; a value that the printer does not support is refused before anything is sent unless --force is given, as are bad page ranges, half a resolution and input of unknown type; no printer description makes print end with an exception.", "quantifier": "for all options, printers and saved settings", "why_tests_cant": "25 options combine to more cases than can be tried, and their order of application matters.", "anchors": ["utils/ippclient.cpp:main", "utils/ippclient.cpp:set_or_fail"]}
{"id": "C76", "title": "When print ends with 0, the job was sent as asked", "statement": "If print ends with 0 then exactly one request carried the job's attributes, with the file's name and the settings that were asked for, and the document sent is what the converter made of the job for the input's type, in one stage or two.", "quantifier": "for all options, printers, replies, converters and files", "why_tests_cant": "The path from the command line to the bytes on the network crosses all modules and is not in the tests.", "anchors": ["utils/ippclient.cpp:main", "lib/ippprinter.cpp:IppPrinter::runJob"]}
{"id": "C77", "title": "Settings saved with --save are asked for again", "statement": "A use of print --save that ends with 0 saves what its options ask for and nothing else; after any later uses of print without --save or for other printers, the next job for a printer with the same uuid has at each attribute what its own options ask for, else what the saved ones asked for, else nothing; no other use of the program changes what is saved.", "quantifier": "for all options, printers, replies and histories of uses", "why_tests_cant": "The histories are unbounded, and the settings pass through the options, the job, JSON and back.", "anchors": ["utils/ippclient.cpp:main", "lib/ippprintjob.cpp:IppPrintJob::saveSettings", "lib/ippprintjob.cpp:IppPrintJob::restoreSettings"]}
{"id": "C78", "title": "pdf2printable converts what its command line says", "statement": "A command line of pdf2printable that consists of uses of its options and two names converts the first to the second with what the last use of each option says (format also by the name of the output); it is refused, with exit code 1 and no output, exactly if the pages are no page ranges, the paper is no paper name, or URF is asked for colors or a media type it does not have; every other command line makes no output. The pages of the output are those of the page sequence, and the exit code is 0 exactly if they all were written.", "quantifier": "for all command lines, documents and disks", "why_tests_cant": "Seventeen options with values combine freely; the result passes through the parsers for pages and paper and through two raster encoders.", "anchors": ["utils/pdf2printable_main.cpp:main", "lib/argget.h:ArgGet::get_args", "lib/printparameters.cpp:PrintParameters::setPaperSize"]}
{"id": "C79", "title": "ppm2pwg converts what its command line says", "statement": "A command line of ppm2pwg that consists of uses of its options and two names makes a raster file of the pictures in the first, in order, with the size of each and what the last use of each option says; it is refused, with exit code 1 and no output, exactly if URF is asked for a media type it does not have or the input can not be read; every other command line makes no output. The exit code is 0 exactly if all of the input was pictures and all pages were written, and the count of pages in a URF file is their number.", "quantifier": "for all command lines, inputs and disks", "why_tests_cant": "Options combine freely and the input is any sequence of pictures and other bytes.", "anchors": ["utils/ppm2pwg_main.cpp:main", "utils/ppm2pwg_main.cpp:ignore_comments", "lib/ppm2pwg.cpp:bmp_to_pwg"]}
{"id": "C80", "title": "JPEG files are made baseline without loss", "statement": "For every JPEG file that libjpeg can read, baselinify appends to its output a file that libjpeg reads as the same picture: same sizes, tables, component identifiers and coefficients, the APP0 and APP1 markers, and the same color space. The bytes pass unchanged through the source and destination managers, whatever the way the library takes, skips and writes them. A file that is cut off or wrong is an error that the caller can handle.", "quantifier": "for all files, all libraries keeping to libjpeg's contract, and all buffer sizes", "why_tests_cant": "Files are of any length, the order of reads, skips and writes is the library's choice, and the effects of a lost marker only show with rare color spaces.", "anchors": ["lib/baselinify.cpp:baselinify", "lib/baselinify.cpp:bts_source_mgr", "lib/baselinify.cpp:bts_destination_mgr"]}
{"id": "C81", "title": "pwg2ppm writes whole pages of damaged files only", "statement": "Wherever a raster file is cut, and whatever takes the place of the rest, pwg2ppm writes the pictures of the complete pages before that place, in order, under names of their own, as it does for the undamaged file, and nothing from half a page. Exit code 0 means that all pages have been written, 1 that the file is not a raster file.", "quantifier": "for all files and all places", "why_tests_cant": "A file can be cut after each byte and continue with any bytes; the decoder is incremental over nested repeat counts.", "anchors": ["utils/pwg2ppm_main.cpp:main", "lib/pwg2ppm.cpp:raster_to_bmp", "lib/pwg2ppm.cpp:write_ppm"]}
{"id": "C82", "title": "What ippclient says about valid values is true", "statement": "When ippclient refuses a value for an option it says that the printer lacks the setting, and then no value is accepted, or it lists valid values, and then the words of the list are exactly the values that it accepts: texts, numbers, names of qualities, the bounds of a range, resolutions. The media that are marked as loaded are exactly those that the printer declares so.", "quantifier": "for all printers, settings and values", "why_tests_cant": "The text is made from whatever the printer declares, and read back by people; tests look at one printer at a time.", "anchors": ["utils/ippclient.cpp:set_or_fail", "utils/ippclient.cpp:resolution_list", "lib/setting.h:supportedStr", "lib/ippattr.cpp:operator<<"]}
{"id": "C83", "title": "ippclient info shows the printer as it is", "statement": "`ippclient info` shows, in a fixed order, a title and a value for each of its attributes that the printer has with a value other than the default one, and nothing else. The values are those of the printer: texts, lists, numbers, each supply with its percentage and its colors, each firmware with its version, native, guessed and convertible formats. It ends with 0.", "quantifier": "for all printers", "why_tests_cant": "Printers leave out any of the attributes and give values of any number and type.", "anchors": ["utils/ippclient.cpp:main", "utils/ippclient.cpp:print_if_set", "utils/ippclient.cpp:print_colors"]}
{"id": "C84", "title": "The job number that is shown is that of the job", "statement": "When `ippclient print --print-job-id` succeeds, the number that it shows is the number with which the printer knows the job, shown once. Without the option, and when printing fails, no number is shown. Asking for the number does not change whether printing succeeds.", "quantifier": "for all printers, options, files and replies", "why_tests_cant": "The number comes from a reply of the printer, in which any attribute can be missing or of another type.", "anchors": ["lib/ippprinter.cpp:doPrint", "utils/ippclient.cpp:main"]}
{"id": "C85", "title": "Requests go where the address says", "statement": "Every request to a printer, and every document, goes to the host, port and path of its address, with TLS if and only if the scheme is ipps; without a port the one of IPP is meant. A printer that was discovered is contacted at the address and the port that it announced.", "quantifier": "for all addresses, requests and discoveries", "why_tests_cant": "Addresses are turned into URLs of another scheme with other default ports; tests use one address.", "anchors": ["lib/curlrequester.cpp:CurlIppPosterBase", "lib/curlrequester.cpp:CurlIppPoster", "lib/curlrequester.cpp:CurlIppStreamer", "lib/ippdiscovery.cpp:make_ipp_addr", "lib/ippdiscovery.cpp:make_ipps_addr"]}
{"id": "C86", "title": "Certificates are checked unless told otherwise", "statement": "A printer object that is not to ignore errors of certificates has the certificate and its name checked on each connection: when asking for and setting attributes, identifying, listing and cancelling jobs, and sending documents.", "quantifier": "for all printers, actions, documents and replies", "why_tests_cant": "Each action opens connections of its own; tests against a local printer without TLS show none of it.", "anchors": ["lib/ippprinter.cpp:doPrint", "lib/ippprinter.cpp:_doRequest", "lib/curlrequester.cpp:CurlRequester"]}
{"id": "C87", "title": "What pdf2printable writes, pwg2ppm shows", "statement": "A raster document that pdf2printable writes is shown by pwg2ppm as one picture per element of the page sequence, numbered in order: in color with the colors that were drawn, in gray or ink with their luminosity, white for a filler.", "quantifier": "for all documents, renderings, page sequences and parameters", "why_tests_cant": "The two programs use separate descriptions of the color modes; tests compare each with files of its own.", "anchors": ["lib/pdf2printable.cpp:pdf_to_printable", "lib/pdf2printable.cpp:copy_raster_buffer", "lib/pwg2ppm.cpp:write_ppm", "lib/pwg2ppm.cpp:cmyk2rgb"]}
{"id": "C88", "title": "CMYK pages are shown in the colors of their inks", "statement": "pwg2ppm shows each pixel of a CMYK page with the color that its inks leave over of white, never less than nothing; more ink never makes it lighter.", "quantifier": "for all documents and amounts of ink", "why_tests_cant": "Only pages of this code's own encoder, which never adds colors to black, are tested.", "anchors": ["lib/pwg2ppm.cpp:cmyk2rgb", "lib/pwg2ppm.cpp:write_ppm"]}
{"id": "C89", "title": "A fake printer saves what a printer would get", "statement": "Printing to a file:// printer saves, in one file named after the document and its format, the document that a printer with the same attributes would be sent for the same job; it succeeds if and only if that would; and it is told that the file was written only if all of it was converted. Nothing is sent.", "quantifier": "for all printers, jobs, files and conversions", "why_tests_cant": "Fake printers are themselves a means for tests; that they do the same as printers is taken for granted.", "anchors": ["lib/ippprinter.cpp:runJob", "lib/ippprinter.cpp:doPrintToFile", "lib/minimime.cpp:defaultExtension"]}
{"id": "C90", "title": "From a job to the document that a printer gets", "statement": "When a job is reported as printed, the data that the printer was sent is a complete document in the format chosen, with what the job asks for: PWG and URF raster is readable and has the pages of the PDF document as drawn, each as often as the page ranges name it, times the copies that are not left to the printer; PDF and PostScript have each page once as named; JPEG files have the same picture in baseline form; plain text has CR LF line ends; any other file is sent byte for byte.", "quantifier": "for all printers, jobs, documents, renderers, libraries and replies", "why_tests_cant": "It composes job finalization, page selection, rendering, raster encoding, chunked sending and printer replies; each has its own state space, and a test of the whole sees one path.", "anchors": ["lib/converter.h:Converter", "lib/ippprinter.cpp:runJob", "lib/ippprintjob.cpp:finalize", "lib/pdf2printable.cpp:pdf_to_printable"]}
{"id": "C91", "title": "From the command line of ippclient print to the document that a printer gets", "statement": "When `ippclient print` ends with 0, the printer was sent a complete document in the format chosen. For a PDF file sent as raster, every page that --pages names (every page, if it is not given) comes out of the printer as often as --copies says (the printer's default, or once, if it is not given), and no other page comes out: the copies made locally times those that the printer is told to make. Sent as PDF or PostScript, it has each of these pages once, and the request has the number of copies. Files in other formats that the printer takes are sent byte for byte.", "quantifier": "for all command lines, printers, documents, renderers, libraries and replies", "why_tests_cant": "The claim joins the parsing of options, the checks against the printer's attributes, job finalization, page selection, rendering, encoding and sending; a test of the whole program sees one combination of options and printer.", "anchors": ["utils/ippclient.cpp:main", "lib/ippprinter.cpp:runJob", "lib/ippprintjob.cpp:finalize", "lib/pdf2printable.cpp:pdf_to_printable"]}
{"id": "C92", "title": "What is reported of a job is what the printer answered", "statement": "runJob reports success only if the printer was reached and answered with a status of success (0x0000 to 0x00FF) to the document and, where there is one, to the creation of the job. A refused document is reported with the text that the printer gives, an unreachable printer with the network error, and an accepted document is not reported as failed.", "quantifier": "for every printer, job, converter behaviour and reply", "why_tests_cant": "Replies are arbitrary bytes; no tests with a printer.", "anchors": ["lib/ippprinter.cpp:doPrint", "lib/ippprinter.cpp:runJob"]}
{"id": "C93", "title": "A tool changes no file but its output, and its output is the conversion of what the input contained", "statement": "ppm2pwg, pdf2printable, baselinify and bsplit change at most the file that the last word of the command line names, and pwg2ppm only files whose names begin with the given prefix. When such a program ends with 0, the output holds the conversion of what the input contained before, whether or not output and input are the same file.", "quantifier": "all command lines, all contents of the files", "why_tests_cant": "A file that is its own output needs the order of opening and reading to be right for every option and content; tests use separate files.", "anchors": ["utils/ppm2pwg_main.cpp:main", "utils/pdf2printable_main.cpp:main", "utils/baselinify_main.cpp:main", "utils/bsplit.cpp:main", "utils/pwg2ppm_main.cpp:main", "lib/binfile.h:OutBinFile"]}
{"id": "C94", "title": "ippdecode shows what a message contains", "statement": "Given one file with an IPP message, ippdecode shows the operation or status, the operation attributes, all job groups in order and the printer attributes, each as JSON from which the attributes can be read back, and ends with 0. It always ends, and it does not end with 0 when no message could be decoded.", "quantifier": "for every command line and every file", "why_tests_cant": "Messages are recursive data of any size; hostile files are unbounded.", "anchors": ["utils/ippdecode.cpp:main"]}
{"id": "C95", "title": "Help and error messages of the command line", "statement": "When a command line is refused, the message names the option or argument that is at fault and says what is wrong with it: a missing or bad value, a word too many, a missing argument. The help has a line for each option, in order, with all its names and its text, and all texts begin in the same column; with sub-commands it is the help of the named one, or of all.", "quantifier": "for every command line and every declaration of options", "why_tests_cant": "Argument lists and declarations are unbounded.", "anchors": ["lib/argget.h:get_args", "lib/argget.h:_argHelp", "lib/argget.h:argHelp"]}
{"id": "C96", "title": "ippdiscover shows every printer that answers", "statement": "ippdiscover shows the addresses of printers, one a line and none twice, only of printers that the responses tell of, and ends with 0. Every printer that has answered all queries about it by the end is shown, however its answers were spread over responses, ordered and mixed with others'. With -h it shows the help and sends nothing; with a word it does not know it ends with 1, names the word and sends nothing.", "quantifier": "for every command line, every sequence of responses and every clock", "why_tests_cant": "The follow-up queries depend on what has arrived so far; the orders and groupings of answers are unbounded.", "anchors": ["utils/ippdiscover.cpp:main", "lib/ippdiscovery.cpp:discover"]}
{"id": "C97", "title": "Printing from the standard input", "statement": "ippclient print with - for the document and --mime-type for its type prints what comes in by the standard input: the printer gets what it would get for a file with the same content, of whatever type. Without --mime-type nothing is sent and the exit code is 1.", "quantifier": "for every printer, options, saved settings and contents of the standard input", "why_tests_cant": "The types, printers, options and contents are unbounded.", "anchors": ["utils/ippclient.cpp:main", "lib/converter.h:Converter", "lib/binfile.h:InBinFile"]}
{"id": "C98", "title": "The encoder stays in its memory", "statement": "bmp_to_pwg and compress_line read nothing outside of the bitmap and write nothing outside of the line buffer, end, and write the rows of the page, whatever the line buffer held when it was made.", "quantifier": "for every parameters, page numbers and bitmaps that hold the page", "why_tests_cant": "Sizes, contents and flips of pages are unbounded, and a read outside of a buffer need not show in a test.", "anchors": ["lib/ppm2pwg.cpp:bmp_to_pwg", "lib/ppm2pwg.cpp:compress_line"]}
{"id": "C99", "title": "What is written is a document by the standard", "statement": "The bytes that the page encoder writes for a list of pages are a PWG raster file or a URF file by the byte layout of the format: file header, page headers with every byte defined, and codes that stand for exactly the rows of the page. The layout gives such a file one meaning only.", "quantifier": "for every list of pages, in any color mode with 1, 8 or 16 bits per color, any size, duplex mode and back side transform", "why_tests_cant": "Lists of pages, sizes and contents are unbounded; reading back with the project's own reader can not show that both agree with the standard, and that reader does not read all that is written.", "anchors": ["lib/ppm2pwg.cpp:bmp_to_pwg", "lib/ppm2pwg.cpp:compress_line", "lib/ppm2pwg.cpp:make_pwg_hdr", "lib/ppm2pwg.cpp:make_urf_hdr"]}
{"id": "C100", "title": "ppm2pwg takes the pixels of a picture, whatever its size", "statement": "With sizes computed as the code computes them (pixel counts in doubles, products in a size_t that wraps, the size of a page as a product of doubles), ppm2pwg takes exactly the pixels of each picture, and refuses a picture whose pixels are not there.", "quantifier": "for every command line, every sequence of pictures of any announced size, and any content of fresh memory", "why_tests_cant": "Rounding and wrapping begin far beyond any size that a test holds in memory; the number of sizes is unbounded.", "anchors": ["utils/ppm2pwg_main.cpp:main", "lib/printparameters.cpp:getPaperSizeWInBytes", "lib/printparameters.cpp:getPaperSizeWInPoints", "lib/ppm2pwg.cpp:bmp_to_pwg"]}
{"id": "C101", "title": "Whatever a printer answers, ippclient comes to an end", "statement": "For every command line and every answer of the printer to every request, ippclient does nothing undefined and ends: with 0, with 1, or by an exception that nobody catches.", "quantifier": "for every command line, every sequence of answers (any bytes or none), every saved setting, every file of overrides and every behaviour of the converters that is defined", "why_tests_cant": "The answers of a printer are arbitrary bytes; what makes arithmetic overflow or an iterator run off its list are single values among them.", "anchors": ["utils/ippclient.cpp:main", "lib/ippprinter.cpp:runJob", "lib/ippprinter.cpp:refresh", "lib/ippprinter.cpp:getPercent", "lib/ippprintjob.cpp:finalize", "lib/ippprintjob.cpp:adjustRasterSettings"]}
{"id": "C102", "title": "The discovery hears every answer in time, and then ends", "statement": "Of the datagrams that arrive, the discovery handles every one that is there within two seconds after it has dealt with the one before, whole and in order; it ends two seconds after the last of these was dealt with.", "quantifier": "for every sequence of datagrams of any length and content with any times of arrival, and any time that the handling of each takes", "why_tests_cant": "The times of arrival and the contents of datagrams from other machines are unbounded; an ending that comes too early depends on one of them.", "anchors": ["lib/udpsocket.h:receive", "lib/ippdiscovery.cpp:discover", "utils/ippdiscover.cpp:main"]}
{"id": "C103", "title": "The two threads of an upload do not race", "statement": "Whenever the writer and the network thread access the same member of the upload object, and one of them writes, the accesses are put in order by a mutex, by joining the thread or by being in one thread.", "quantifier": "for every execution: any interleaving, any blocks and compression, any sizes of curl's buffers, any time at which the transfer ends or breaks off", "why_tests_cant": "A data race shows itself only for rare interleavings, compilers or processors.", "anchors": ["lib/curlrequester.cpp:write", "lib/curlrequester.cpp:requestWrite", "lib/curlrequester.cpp:await", "lib/curlrequester.cpp:setCompression", "lib/lthread.h:run", "lib/lthread.h:isRunning"]}
{"id": "C104", "title": "Saved settings are kept in one file per printer, below the user's directory", "statement": "Saving the settings of a job writes one file in the directory saved_settings of the user's configuration and touches no other; printers with different uuids have different files; restoring reads the file that was written for the same uuid, so that the files are as good as a map from uuids to settings.", "quantifier": "for every uuid that a printer sends, every user and every state of the file system", "why_tests_cant": "The uuid comes from the network and may be any bytes; a test would try well-behaved ones.", "anchors": ["lib/ippprintjob.cpp:saveSettings", "lib/ippprintjob.cpp:restoreSettings", "lib/ippprintjob.cpp:settings_dir", "lib/configdir.h:CONFIG_DIR"]}
{"id": "C105", "title": "Page ranges, paper sizes, colors and pairs are accepted as the regular expressions say", "statement": "Which texts are accepted as page ranges, paper size names, colors of supplies and pairs of name and value, and which parts of them are used, is what the regular expressions in the source say under the ECMAScript rules; no expression can match a text in two ways that give different groups.", "quantifier": "for every text, of any length and with any bytes", "why_tests_cant": "A text can be matched in very many ways, and a test tries a few texts.", "anchors": ["lib/printparameters.cpp:parsePageRange", "lib/printparameters.cpp:setPaperSize", "utils/ippclient.cpp:print_colors", "utils/ippclient.cpp:main"]}
{"id": "C106", "title": "What get-jobs shows tells the jobs apart", "statement": "The text that ippclient get-jobs shows can be read back: it tells of exactly the jobs that the printer has described, in their order, with number, name, state and message. Different lists of jobs are shown differently.", "quantifier": "for every reply of the printer, with any number of jobs and any names and messages", "why_tests_cant": "A name or a message can be any text; a test tries a few.", "anchors": ["utils/ippclient.cpp:operator<<", "utils/ippclient.cpp:main", "lib/ippprinter.cpp:getJobs"]}
{"id": "C107", "title": "ippclient print reads no variable that has no value", "statement": "Every variable that ippclient print reads has been given a value, whichever options are given.", "quantifier": "for every printer, every set of options and every file", "why_tests_cant": "A variable without a value often holds something harmless, and the copy of it is not used.", "anchors": ["utils/ippclient.cpp:main", "utils/ippclient.cpp:set_or_fail"]}
{"id": "C108", "title": "pdf2printable stays within the numbers and the memory of the machine", "statement": "Whatever paper size and resolution are asked for, and whatever pages the document has, pdf2printable either refuses or converts: it reads no pixel outside of the image that cairo made, divides by no zero, and puts no number where it does not fit. A page that is too large for an image is an error.", "quantifier": "for every command line, every document with any pages, and every size of paper at every resolution", "why_tests_cant": "The numbers at which sizes wrap around, and documents with damaged pages, are not among the usual test cases.", "anchors": ["lib/pdf2printable.cpp:pdf_to_printable", "lib/pdf2printable.cpp:fixup_scale", "lib/printparameters.cpp:getPaperSizeWInPixels"]}
{"id": "C109", "title": "The requests of one use of ippclient are numbered one after the other", "statement": "One use of ippclient sends at most three requests. Their request-ids are 1, 2 and 3, in the order in which they are sent. The request for the printer's attributes has version 1.1; each one after it has version 2.0 if the printer lists 2.0 in ipp-versions-supported, and 1.1 otherwise.", "quantifier": "for every command line, every setting and file, and every reply of a printer", "why_tests_cant": "Whether a number is used twice or skipped depends on which requests were sent before, and so on the replies.", "anchors": ["lib/ippmsg.cpp:encode", "lib/ippprinter.cpp:_mkMsg", "lib/ippprinter.cpp:runJob", "lib/ippprinter.cpp:refresh"]}
{"id": "C110", "title": "Printing a PDF file with the arithmetic of the machine", "statement": "With 32 bit and 64 bit numbers, cairo's limit of 32767 pixels and memory that begins with anything in it, ippclient sends the same documents as it does with numbers that have no limit: a PWG or URF file of the chosen pages, or the PDF or Postscript file that cairo makes; if the page is too large for cairo it sends nothing of it. Printing comes to an end, without undefined behaviour.", "quantifier": "for every command line, printer, PDF file, content of new memory and resolution", "why_tests_cant": "Overflows appear with sizes that no test tries, and memory that happens to be zero hides that it was not written.", "anchors": ["lib/converter.h:Converter", "lib/pdf2printable.cpp:pdf_to_printable", "lib/pdf2printable.cpp:copy_raster_buffer", "lib/ippprinter.cpp:runJob", "utils/ippclient.cpp:main"]}
{"id": "C111", "title": "Decoding an IPP message needs only so much of the stack", "statement": "There is a depth of nested calls of collectAttributes that no IPP message makes the decoder exceed: on a stack with room for that many calls every message is decoded as on an unlimited one, and the function that the fuzzer calls returns 0.", "quantifier": "for every sequence of bytes and every size of the stack", "why_tests_cant": "The fuzzer's inputs are short; collections nested thousands of times appear in no test.", "anchors": ["lib/ippmsg.cpp:collectAttributes", "lib/ippmsg.cpp:consumeAttributes", "lib/ippmsg.cpp:LLVMFuzzerTestOneInput"]}
{"id": "C112", "title": "What the converters say", "statement": "pdf2printable and ppm2pwg answer a request for help on the standard output with the usage, a line for each option and exit code 0, and do nothing else. Otherwise nothing but the document goes to the standard output, and (without -v) there is something on the standard error exactly if the exit code is 1: for a command line that is refused, before any output is made, what is wrong with it and the usage; for a picture that is refused, what its header has and what is supported; for a conversion that fails, why. The choices that the help lists are accepted.", "quantifier": "for every command line, every name of the program, all files and every document, whatever the libraries do", "why_tests_cant": "The tests run the converters with command lines that work and do not look at what they print.", "anchors": ["utils/pdf2printable_main.cpp:main", "utils/ppm2pwg_main.cpp:main", "utils/pdf2printable_main.cpp:print_error", "utils/ppm2pwg_main.cpp:print_error", "lib/argget.h:argHelp"]}
{"id": "C113", "title": "What ippclient says", "statement": "A request for help behind a sub-command of ippclient is answered on the standard output with the usage of this sub-command and exit code 0; nothing is sent. Otherwise a run that comes to an end either ends with 0, with nothing on the standard error and on the standard output exactly what was asked for (information, attributes, jobs, the number of the job with --print-job-id, else nothing), or with 1, with nothing on the standard output and on the standard error a text that names the first thing that was wrong: the command line with the usage, the printer's attributes, a value that the printer does not support with the option's names and the values that it does support, the input, the settings that can not be saved, or the answer of the network, the printer or the converter. A request for help alone is answered with the help and code 0.", "quantifier": "for every command line, every name of the program, all files, and every printer and network", "why_tests_cant": "There are no tests of ippclient; the texts depend on the printer's attributes and replies, of which there are arbitrarily many.", "anchors": ["utils/ippclient.cpp:main", "utils/ippclient.cpp:set_or_fail", "utils/ippclient.cpp:print_error", "lib/argget.h:argHelp", "lib/ippprinter.cpp:runJob", "lib/ippprinter.cpp:doPrint", "lib/ippprinter.cpp:_doRequest", "lib/ippprinter.cpp:refresh", "lib/ippprintjob.cpp:finalize"]}
{"id": "C114", "title": "pwg2ppm shows documents of any encoder and reports what it does", "statement": "A PWG or URF document that any encoder has made by the rules of the standard, in gray or color with 8 bits or (PWG) with one bit per pixel, is turned into one picture per page with the pixels of the page, under names with the page's number, and pwg2ppm ends with 0. For any file, damaged or not, the standard error gets the kind of file that it begins as (for URF with the number of pages that it claims), then for each page that is written its number and its header, and at the end the number of pages if all went well, or else the number of the page at which it stopped.", "quantifier": "for every document in the sense of the standard, however its encoder has split, repeated and filled, and every file for the report", "why_tests_cant": "The tests only read back what this project's own encoder writes; other encoders have arbitrarily many ways to write the same page.", "anchors": ["utils/pwg2ppm_main.cpp:main", "lib/pwg2ppm.cpp:raster_to_bmp", "lib/pwg2ppm.cpp:write_ppm"]}
{"id": "C115", "title": "What the small tools do and say on any command line", "statement": "bsplit answers a request for help with its help on the standard output and 0; otherwise it says on the standard error the first fault of the command line with the help, that the input can not be opened, or that one of --head and --tail has to be given, and ends with 1; otherwise it says nothing and writes the first or last n bytes, or all but the last or first n, and an exception ends it if the file has fewer than n. baselinify, ippdecode, minimime and pwg2ppm show their usage and end with 1 if the number of words is wrong. A file that can not be opened is reported, with 1, and where something is reported the code is not 0.", "quantifier": "for every command line, name of the program, and all files", "why_tests_cant": "There are no tests of these programs; command lines, numbers and files are unlimited.", "anchors": ["utils/bsplit.cpp:main", "utils/bsplit.cpp:print_error", "utils/baselinify_main.cpp:main", "utils/ippdecode.cpp:main", "utils/minimime_main.cpp:main", "utils/pwg2ppm_main.cpp:main"]}
{"id": "C116", "title": "What is decoded is not much larger than what was received", "statement": "The size of a decoded IPP message (one for each value, name and group of job attributes, and the bytes of strings and names), with what is left of the data, is at most the number of bytes without the first eight. The pictures that pwg2ppm makes of a PWG or URF file, whole or damaged, are together at most 32768 times as large as the file. A name in a datagram is not longer than the datagram, nor than a domain name can be (253 bytes).", "quantifier": "for all data, files and datagrams", "why_tests_cant": "The bound is about the worst of all inputs; tests use ordinary ones.", "anchors": ["lib/ippmsg.cpp:IppMsg::IppMsg", "lib/ippmsg.cpp:IppMsg::collectAttributes", "lib/ippmsg.cpp:IppMsg::getUnnamedAttributes", "lib/pwg2ppm.cpp:raster_to_bmp", "lib/pwg2ppm.cpp:write_ppm", "utils/pwg2ppm_main.cpp:main", "lib/ippdiscovery.cpp:get_addr", "lib/ippdiscovery.cpp:get_addr_str"]}
{"id": "C117", "title": "What the library writes to the standard error by itself, and ippclient with it", "statement": "While a message is decoded, one text is written for every group of unsupported attributes, in their order, with the attributes of that group as JSON, and nothing else; while one is encoded, a text is written exactly if an attribute has a tag that is not known, and then encoding fails with that tag. After a run of ippclient that ends with 0, the standard error has these texts for the printer's attributes, then a line if the overrides cannot be read or applied, then the texts for each later reply (or, for a printer that is a file, a line for each debug file written), and nothing else; without any of these it is empty.", "quantifier": "for all messages, all data, all command lines, printers, files and replies", "why_tests_cant": "Tests capture one run; that nothing else is ever written is about all runs.", "anchors": ["lib/ippmsg.cpp:IppMsg::IppMsg", "lib/ippmsg.cpp:IppMsg::encodeValue", "lib/ippprinter.cpp:IppPrinter::refresh", "lib/ippprinter.cpp:IppPrinter::_applyOverrides", "lib/ippprinter.cpp:IppPrinter::doPrintToFile", "utils/ippclient.cpp:main", "utils/ippdecode.cpp:main"]}
{"id": "C118", "title": "What on a command line makes no difference", "statement": "If two command lines of ippclient, pdf2printable or ppm2pwg have the same positional arguments and give each option, but for -v, the same value the last time, then the tools do and say the same: the order of the options, the names they are called by, and earlier uses make no difference. -v makes no difference on any command line, correct or not (but for the debug output itself).", "quantifier": "for all command lines, printers, files, replies and documents", "why_tests_cant": "There are too many orders and combinations of options to try.", "anchors": ["lib/argget.h:ArgGet::get_args", "lib/argget.h:SubArgGet::get_args", "utils/ippclient.cpp:main", "utils/pdf2printable_main.cpp:main", "utils/ppm2pwg_main.cpp:main"]}
{"id": "C119", "title": "Datagrams that are cut off, or are no responses", "statement": "Whatever datagrams arrive during discovery: of a response (up to 4096 bytes) its records are taken, of the beginning of one the records that are in it as a whole and at most some strings of the next one, and of anything else at most records whose names, strings, port or address stand in it. The printers reported are exactly those that the records taken tell of, and what they leave open is asked for. A datagram that is longer than the buffer it is received in counts as cut off there. Nothing is made up: each address that is reported has a port, an IPv4 address and a path that stand in the datagrams.", "quantifier": "for all sequences of datagrams of any contents and lengths, and all times", "why_tests_cant": "Datagrams can be cut off anywhere and garbled in any way.", "anchors": ["lib/ippdiscovery.cpp:IppDiscovery::discover", "lib/ippdiscovery.cpp:get_addr", "lib/ippdiscovery.cpp:IppDiscovery::update", "lib/udpsocket.h:UdpSocket::receive"]}
{"id": "C120", "title": "What discovery writes to the standard error", "statement": "During discovery nothing is written to the standard error for a datagram that is a response (up to 4096 bytes), and the text of one exception for a datagram that can not be read: that it is too short, or that a name in it leads back to itself. A response that is cut off before its last record ends is too short, provided that the last record is of a type that is read; a name in the first question that refers to itself is of the other kind, whatever follows. A datagram with a record whose data does not end where its length says can not be read, either.", "quantifier": "for all sequences of datagrams of any contents, and all texts of exceptions", "why_tests_cant": "Datagrams can be cut off anywhere and garbled in any way.", "anchors": ["lib/ippdiscovery.cpp:IppDiscovery::discover", "lib/ippdiscovery.cpp:get_addr", "utils/ippdiscover.cpp:main"]}
{"id": "C121", "title": "No object of the PDF conversion is used after its end", "statement": "However the conversion of a PDF document ends, pdf_to_printable uses none of its variables after their destruction: a cairo surface that is released when the function is left writes only to a byte stream that still exists.", "quantifier": "for all documents, formats, page sequences, papers, callbacks and command lines, and whatever cairo writes when a surface is released", "why_tests_cant": "A stream that is gone often still looks intact; the conversion has to fail between two pages, for which cairo or the receiver has to fail.", "anchors": ["lib/pdf2printable.cpp:pdf_to_printable", "lib/pointer.h:Pointer", "utils/pdf2printable_main.cpp:main"]}
{"id": "C122", "title": "The network thread's calls of requestWrite within each other are bounded", "statement": "The number of calls of requestWrite that have not returned does not grow with the document that is sent: there is a bound for all documents and blocks. All have returned when curl gets control back.", "quantifier": "for all interleavings of the two threads, all blocks, buffer sizes and compressors", "why_tests_cant": "Compilers usually make a loop of the call; without that it takes thousands of blocks of which the compressor puts out nothing.", "anchors": ["lib/curlrequester.cpp:CurlIppPosterBase::requestWrite", "lib/curlrequester.cpp:CurlIppPosterBase::write", "lib/curlrequester.h:CurlIppPosterBase::trampoline"]}
{"id": "C123", "title": "Each line that ippdiscover writes is the address of a printer that was announced", "statement": "Each line of the standard output of ippdiscover is the ipp or ipps address of a printer that the responses tell of, and the host it leads to, as RFC 3986 reads an address, is an IPv4 address that was announced for that printer. Nothing else that a response contains, such as the path, makes a line or changes the host.", "quantifier": "for all datagrams, clocks and command lines that ask for a discovery", "why_tests_cant": "Printers on a test network have harmless paths; the paths with which a line or a host could be forged are unlimited in number.", "anchors": ["lib/ippdiscovery.cpp:make_addr", "lib/ippdiscovery.cpp:ip4str", "lib/ippdiscovery.cpp:IppDiscovery::update", "utils/ippdiscover.cpp:main"]}
{"id": "C124", "title": "A datagram that arrives again brings nothing new", "statement": "When the same datagram arrives several times in a row during discovery, then after the first time no address is reported, nothing of what is known about printers changes or grows, and no query is sent but for the addresses of hosts of which none is known yet.", "quantifier": "for all datagrams, well-formed or not, all datagrams before, all clocks and numbers of copies", "why_tests_cant": "Copies of a datagram come by chance, from hosts with several interfaces and from repeated announcements; what was held back in the first round depends on everything that came before.", "anchors": ["lib/ippdiscovery.cpp:IppDiscovery::update", "lib/ippdiscovery.cpp:IppDiscovery::updateAndQueryPtrs", "lib/ippdiscovery.cpp:IppDiscovery::discover"]}
{"id": "C125", "title": "What is obtained from the libraries is given back exactly once, and not used afterwards", "statement": "Each object that the conversion of PDF obtains from poppler or cairo, and each that a transfer obtains from curl or zlib, is made once, used only after that, given back exactly once, and not used afterwards, whichever way the function or the transfer is left.", "quantifier": "for all page sequences, formats, answers of the libraries, refusals, failures and exceptions, and all orders of what the owner of a transfer and its worker do", "why_tests_cant": "The ways out of the function depend on failures of libraries and of the receiver at each page; an object that is not given back has no visible effect in a single run, and one that is used too late only sometimes has.", "anchors": ["lib/pdf2printable.cpp:pdf_to_printable", "lib/pointer.h:Pointer", "lib/curlrequester.cpp:CurlRequester::~CurlRequester", "lib/curlrequester.cpp:CurlIppPosterBase::setCompression", "lib/curlrequester.cpp:CurlIppPosterBase::await", "lib/ippprinter.cpp:IppPrinter::doPrint"]}
{"id": "C126", "title": "A job that is accepted can be written", "statement": "If a job asks for what the printer declares to have, and is found to be in order and turned into raster, then the pages can be written in the format that was chosen.", "quantifier": "for all printers, job settings, inputs, pages and bitmaps", "why_tests_cant": "Whether a page can be written depends on the value of each setting, where it comes from and the chosen format together; media types are an open set.", "anchors": ["lib/ippprintjob.cpp:IppPrintJob::finalize", "lib/ppm2pwg.cpp:make_urf_hdr", "lib/ppm2pwg.cpp:bmp_to_pwg"]}
{"id": "C127", "title": "The queries of a discovery are numbered one after the other", "statement": "The transaction number in the first two bytes of each query datagram is the number of queries sent before it, modulo 2^16; so two queries with the same number are a multiple of 65536 queries apart.", "quantifier": "for all datagrams received, all names and times, and any number of queries", "why_tests_cant": "That numbers wrap around right shows only after 65536 queries, and calls that find nothing left to ask for must not use up a number.", "anchors": ["lib/ippdiscovery.cpp:IppDiscovery::sendQuery", "lib/ippdiscovery.h:IppDiscovery"]}
{"id": "C128", "title": "Only answers count", "statement": "A datagram that is not an answer without error (a query or probe of another host, or one with an opcode or response code), and a record that is taken back (time to live zero), brings nothing to report.", "quantifier": "for all datagrams, in any order, at any point of a discovery", "why_tests_cant": "Which other hosts ask, probe or leave while a discovery runs is not up to the one who tests.", "anchors": ["lib/ippdiscovery.cpp:IppDiscovery::discover"]}
{"id": "C129", "title": "Libraries loaded at run time", "statement": "In the builds that load poppler, cairo and libjpeg while they run: a function of a library is only called if it was found and while the library is loaded, every library is closed as often as it was opened, and if a library or a function is missing there is an exception before anything is done with it.", "quantifier": "for all sets of libraries and functions that are there, all documents and pictures, and all ways in which the conversion can end", "why_tests_cant": "A pointer into a library that was closed often still works, and machines for tests have all of the libraries.", "anchors": ["lib/madness.h:LibLoader", "lib/pdf2printable.cpp:pdf_to_printable", "lib/baselinify.cpp:baselinify", "lib/baselinify.cpp:bts_source_mgr"]}
{"id": "C130", "title": "Errors of the socket are told", "statement": "If a call for the socket of a discovery fails (socket, setsockopt, sendto, recvfrom), the discovery ends with an exception that tells so, or goes on and reports all that is reported without the failure; it does not end as if there were no more printers.", "quantifier": "for all datagrams and times, and all calls that fail", "why_tests_cant": "Calls of the system hardly ever fail in tests, and not at every place.", "anchors": ["lib/udpsocket.h:UdpSocket", "lib/ippdiscovery.cpp:IppDiscovery::discover", "lib/ippdiscovery.cpp:IppDiscovery::sendQuery"]}
