# Design of the formal model of ppm2pwg

Subject: the C++ sources in /repo (attah/ppm2pwg). The model and the proofs are in Lean 4
(`/verif/lean`). The properties are in `properties.jsonl` (C01...), the status per property in
`MANIFEST.json`.

## 1. Approach

* Each C++ function in scope becomes a total, computable Lean function on byte lists (`List UInt8`),
  natural numbers and small enumerations. Each definition cites file and lines and names what it simplifies.
* C++ outcomes are explicit: a result is `ok`, an exception (`throws`, with the exception class where the
  code distinguishes them), undefined behaviour (`ub`) or non-termination (`hang`). A theorem that says
  "= ok ..." therefore also says: no exception, no undefined behaviour, no endless loop.
* Loops are modelled by structural or well-founded recursion on the data, not by fuel.
* Each area has: a model file, a separate specification (written without the model's helper functions),
  helper lemmas, and a `Props` file that holds only the property theorems and `example`s that show that
  the hypotheses can be met.
* False properties: the negation is proved with a concrete witness (`..._false`), and what remains true
  is proved as `..._partial`.

## 2. Trusted base

1. Lean 4.33.0's kernel, and the axioms `propext`, `Classical.choice`, `Quot.sound` where `#print axioms`
   lists them (section 6). No other axioms, no `sorry`, no `native_decide`, no `bv_decide`.
2. The transcription from C++ to Lean (by hand). Every definition cites the lines it transcribes.
   Evidence that it is right (tests, not properties): what the project's own tests demand holds of the model, by evaluation in the kernel:
   `Check/Pacman.lean` (the headers of `tests/pacman.pwg`), `Check/Raster.lean` (tests/test.cpp 202-583: ppm2pwg from the command line to
   the file's bytes, with 1, 8 and 16 bits, duplex and all back side transforms), `Check/Params.lean` (700-1210 and 1382-1442: paper sizes, page
   ranges and sequences, color modes, flips), `Check/Args.lean` (1212-1380: the command line), `Check/Job.lean` (1483-2439: settings, encoding and
   decoding, finalize, guessed formats, JSON, the getters, conversions, looping DNS names). Of that file only the tests that render a PDF (585-698), start
   threads (1444) or compare attributes of which the model has the constructors only (1465) are not run this way.
3. The behaviour of code which is not in /repo (git submodules `bytestream` and `json11` are empty
   there; libcurl, zlib, poppler, cairo, the C++ library, the OS):
   * `Bytestream`: `<<` of integers appends big-endian bytes; `<<` of a string or string literal appends its characters
     without a NUL; `>>` of a variable reads big-endian and throws `out_of_range` when data is short;
     `>>` of a constant throws unless the data matches; `>>=`/`next` consumes on a match and returns
     false without consuming otherwise, also when data is short (evidence: `IppMsg` decoding reads past the last
     tag this way, and the tests' `nextBytestream` loops run into the end of data).
   * the `CODABLE` macros (`pwgpghdr.codable`, `urfpghdr.codable`): fields in order, big-endian, strings
     zero-padded to their size, padding zero (evidence: `tests/pacman.pwg`; the model is checked against these bytes).
   * json11: parse is a left inverse of dump for the values that occur.
   * zlib, curl, poppler and cairo are abstract parameters wherever they occur. A compressor is a function of its state, the input, the room for output and the finish flag.
4. Sizes: `size_t` values are naturals; wrap-around is modelled where the code can reach it
   (raster_to_bmp's `height`), and stated as a hypothesis (numbers fit their fields) elsewhere.
5. Floating point: paper sizes and their conversions (C17, C64, C65) and `fixup_scale` (C50) are modelled with IEEE 754 double precision, round to nearest even
   (`Core/Double.lean`), without the limits of the exponent; `pow(10, n)` is taken to be correctly rounded; a multiplication and
   an addition are taken not to be fused; the argument of `roundf` is rounded to single precision. Pixel sizes enter the raster model as naturals.

## 3. Not modelled

Rendering (poppler/cairo), libjpeg (a parameter of `Verif/Jpeg`: what it reads and writes, bound to its documentation, libjpeg.txt), sockets
(`udpsocket.h`, but for the datagrams' times of arrival, the time limit of `receive`, and calls that fail, `Discovery/Socket.lean` and `Discovery/SocketErrors.lean`), dynamic loading other than in `Life/Libraries.lean` (types of the functions are not compared), logging (`log.h`), terminal output, file
system access, TLS and HTTP, time (times are inputs). Of ippclient: debug output, what `info` has shown before an exception ends it, anti-aliasing, the stack that `std::regex_match` uses on long texts. Of pdf2printable
and ppm2pwg: debug output, an output that is the input at the same time (only in `Convert/Files.lean`), what remains in the output stream's buffer when an exception ends
the program. Of cairo it is assumed that an image surface of a size outside of 0..32767 (any smaller limit will do) and a fallback resolution of 0 are errors that
`cairo_status` tells of (C108); of poppler that `poppler_page_get_size` of null sets nothing. Not modelled: an empty name of a PDF file (`std::filesystem::absolute`
may throw for it), running out of memory (for instance by a huge number of copies in `getPageSequence`), also of curl and zlib when they are set up (C125); `hexdump`, `describe()` of the page headers (a parameter of C114) and the other functions of bytestream, whose source is not in the repository. A text given to
`IppAttr(tag, "text")` becomes a `std::string` in the variant, not a `bool`; this depends on the compiler following P0608 (GCC 10 and later, in C++17 mode too).

## 4. Plan per property

Raster (`Verif/Raster`)
* C01: model `compress_line`, the line-repeat loop of `bmp_to_pwg`, and `raster_to_bmp`. Proof: strong induction on the number of
  chunks left for one line; induction on the lines for the page; the statement has an arbitrary rest of stream.
* C02, C03: header encoders/decoders and the page loop of pwg2ppm_main; induction on the page list, using C01, C06, C11.
* C04: specification of mirroring as index maps on pixels; the flips of the model are shown equal to them; the bit-reversal
  multiplication trick is proved for all 256 bytes by kernel evaluation and lifted.
* C05: false (padding moves to the front of the line). Negation with witness; partial for widths that are multiples of 8.
* C06, C07, C11: field-by-field encode/decode lemmas; header length; table of refusals.
* C08: invariant over the produced opcodes, by the same induction as C01.
* C09: false (endless fill when the white pixel does not divide the rest of the line). Negation, and the exact condition under
  which the decoder ends.
* C10: false: the chunk size passed by pwg2ppm_main is the number of colors. Negation with witness; partial for a decoder called with the right chunk size.
* C81: every decoder is shown to read the same if more follows (`Extends`); induction over the pages with the files written so far.
* C60: inductive specification of well-formed codes (rows and pages); the decoder is run along it. C61: C02/C03 composed with C13 and the models of both
  tools' runs.
* C12, C62: arithmetic on bytes, lifted to images.
* C13: model of the istream operations used; false for pixel data that starts with '#'. Partial otherwise.
* C18: arithmetic.

Print parameters (`Verif/Params`)
* C14: grammar as an inductive/declarative specification; soundness and completeness of the parser.
* C15, C16: list lemmas on the page sequence, parity invariants.
* C17: declarative grammar with exact decimals; what is stored is compared with the double nearest to it.
  `C14_exact` and `C17_exact` cover every string, with what exactly makes them throw.
* C65: `dbl` rounds a rational to 53 binary digits; relative error bounds are carried through each operation (`Bd`). Whole millimeters are exact
  because the double 25.4 is below 25.4 and a quotient that is not whole is at least 1/127 below the next whole number.

Strings (`Verif/Text`)
* C19: false for CR LF; exact description of what is produced. C20: induction on the string.

IPP (`Verif/Ipp`)
* C21, C22, C24, C25: values as an inductive type with nested sets and collections; encoder and decoder function by function; mutual
  induction over values. C23: undefined behaviour as outcome; negation with witness, and absence of it for messages without collections.
* C26: JSON as inductive type. C27, C28: attribute maps as sorted association lists; refinement to a function from setting to value. C54 likewise.

Jobs and printers (`Verif/Job`, `Verif/Printer`)
* C29..C37, C51, C52: decision logic over attribute maps, with the maps of the IPP model.
* C63, C64: `finalize` as a run of steps, with what each step leaves unchanged; members of media-col as a function of their name.
* C68..C70: requests and replies as bytes; the request sent is described by its operation and attributes, the response by its groups. C71: rules as
  data, with their JSON form; the value of each name by the last rule that is for the printer. The JSON parser is a parameter. C72: occurrence in
  the device id as infix.

Transport (`Verif/Transport`)
* C38..C40: transition system of two threads with program counters and two mutexes; every access to shared state is a step of its own;
  invariants by induction over steps. What is sent is compared with what is written on the trace of visible events. The compressor is a
  parameter; the progress theorems assume of it only what `Spec.Sound` says (it uses input or puts out something when it has both input and
  room, and its output is bounded). Deadlock: every reachable state in which the writer is in a call has a step of work; endless waiting: a
  lexicographic measure that every step of work decreases. C39's last claim and C40 for an empty document are false; negations with witness.
  `Narrow.lean` has what the code makes of zlib with its 32 bit counter: the same for blocks below 4 GiB (simulation), false for longer ones.

Discovery (`Verif/Discovery`)
* C41: `get_addr` as big-step rules; the decoder runs them, and the set of references seen bounds the rounds.
* C42: a separate specification of names and questions after RFC 1035 (references of 14 bits to earlier places); the encoder's table of
  suffix positions is an invariant. Messages up to 4096 bytes (12-bit references), labels without dots.
* C43, C44, C59: `update` and `discover` on any list of datagrams. C44 only within one datagram; `Discovery/Exact.lean` puts the halves together: what a datagram brings, exactly.
* C66, C67: a relation between bytes and records (`Response`), lookups over lists of records, and an invariant between the records received so
  far and the state. Responses of up to 4096 bytes. TXT keys are compared byte by byte (RFC 6763 ignores case), the last of several equal keys
  counts (RFC 6763: the first), a string without `=` is its own value; a service is recognised by the end of the name.
* C53: histories of `sendQuery` with any names and a clock that does not run backwards; the ageing as it is meant, and the program's own
  (undefined when something is aged out) agreeing with it until then.

Tools (`Verif/Tools`)
* C45: argument lists as lists of byte strings; a separate specification says which splittings of the list into uses of options and
  positional arguments account for it; the parser is sound and complete for it. C46: contents as byte lists, sizes with the code's `int`.
  C47: first bytes of the file against the published magic numbers.

PDF (`Verif/Pdf`)
* C12: bytes of a pixel, lifted to images. C48: renderer and write callback as parameters; the events of a call are compared with a separate
  description of the wanted ones, cut at the first block that is not taken; with C02 and C03 the file is read back. C49: checked array
  accesses and `int` arithmetic; invariant over rows and columns. The luminosity is a parameter of which only `Spec.Sums` (C62: `Spec.Rounds`) is
  used, and the double precision arithmetic of the code is shown to meet both. C50: error bounds of double and single precision for each operation (Mathlib's floor and linear arithmetic), per direction, then
  for both; the numbers of the property carry a `Spec.blur` of a millionth of the paper.
* C82: the text is read back by a specification (words at each comma with a space, numbers in decimal, `XxYdpi`) and compared with what C54 says is accepted; that a
  text can be read in one way only is shown by taking digits off its front.
  `C82_written` says for all values how they are written.
* C83: the blocks that are shown as a list with distinct titles, each compared with its attribute; colors by a table of hexadecimal digits, compared for all 256 bytes.
* C84: the events of a run, followed to its end, contain what the reply tells; shown through each step of `runJob` (an action ends without an error only if its last
  reply was read).
* C85: URLs by a specification after RFC 3986 (scheme, host, port, path), with a proof that a URL leads to one place only; joined with C66 for printers that were discovered.
* C86: the options of libcurl that each request and each document sets.
* C87: C48's documents read back by C02 and C03, written by `write_ppm`, and compared with the picture as drawn (C12 for CMYK, C62 for gray, C49 for 1-bit pages). Pages that are turned over: `Pdf/Turned.lean`, where turning the bytes is shown to be turning the picture.
* C88: inks as numbers, subtracted from white without going below zero; C02 and induction on pixels and pages.
* C89: the run with a fake printer compared with the run that C57 describes, block by block.
* C90: C57 (what is sent is what the conversion wrote), C31, C32 and C34 (what the job becomes) and C48, C19, C80 (what the conversions write), joined in
  `Verif/Deliver`, where the conversion functions of converter.h are no longer arbitrary. `C48_success` turns the success of `pdf_to_printable` into the facts
  that the other theorems of C48 have as hypotheses. A file that can not be read
  is followed through all ways that `runJob` can take (`C90_unread`).
* C91: C75 (the options become attributes of the job), C77 (saved ones) and C90. The text after `--pages` is read by C14's specification; its ranges are disjoint, so each page
  is named at most once.
* C92: every way through `runJob` ends with the printer's answer to the document or with an error from before it; the status in the specification is that of
  the bytes of the answer (RFC 8010), not that of the decoded message.
* C93: `Convert/Files.lean` runs the tools on files that change: the output is emptied when it is opened, so what is read from the input depends on whether it
  is the same file. Links and two paths to one file are not modelled.
* C94: what ippdecode shows is put together from C24 (which attributes the decoder reports) and C26 (what can be read back from their JSON).
* C95: the words of a refused command line are split into proper uses of options and the rest; an inductive specification says what can be wrong with the rest and what is said
  about it, and that only one thing can be said.
* C96: `Discovery/Tool.lean` has the whole program. That every printer is found is a closed loop: what is not known has been asked for (C67), what was asked for is answered
  (a hypothesis about the network), and what is known is reported (C66).
* C97: `Deliver/Stdin.lean` puts ippclient on files and a standard input; with these, C91 applies to the name `-`.
* C98: `Raster/Pointers.lean` has `bmp_to_pwg` and `compress_line` with pointers, counters, the line buffer and the `int` for the distance of lines; each loop is shown to
  follow the one over chunks or rows in `Codec.lean` and `Page.lean`, which C01 to C11 are about.
* C99: `Raster/Standard.lean` defines inductively which bytes are a PWG or URF file and which headers and rows they show, without a reader. The encoder's output is shown to
  be such a file by induction over its loops; that a file has one meaning by induction over the definition. C48, C78, C79, C90, C91 and C93 conclude with it too.
* C100: `Convert/Machine.lean` has the loop of ppm2pwg with doubles, wrapping products and the encoder with its pointers. It is shown to be the loop over natural numbers for whole
  pictures, so that C79 applies; witnesses show where it is not.
* C101: `Client/Defined.lean` shows of each function that it is defined for all values, `Client/Robust.lean` that `finalize` is when the numbers are of a sensible size (sizes of paper with at
  most five digits in a row, resolutions below 2^30), and `Client/EndProps.lean` that all that `main` does keeps the numbers so.
* C102: `Discovery/Socket.lean` runs the loop of `discover` on datagrams with times of arrival and shows it equal to `discover` on the list of those that come in time, so that C41 to C44, C66,
  C67 and C96 speak about what arrives.
* C103: `Transport/Race.lean` gives to each step of the transition system what it reads, writes, locks and unlocks; the order between steps is the one of the C++ memory model (within a thread,
  from unlock to lock, from the end of a thread to joining it). The proof is an invariant: who has the right to use the members has all their earlier uses behind it in this order.
* C104: `Client/Paths.lean` has paths, directories and files: `operator/` of `std::filesystem::path`, the way from name to name with "." and "..", and the end of a path at a zero byte. With uuids
  that are file names the files refine the store by uuids of C28 and C77; `Client/FileRuns.lean` does `print` with files and carries C77 over (`C77_agrees_partial`, `C77_files_partial`).
* C105: `Text/Regex.lean` reads a regular expression from its text and says in which ways it matches a text, with the groups. The five expressions of the code agree with the models of C14,
  C17, C74 and C83, whichever way is taken.
* C106: the text of `get-jobs` is read back, line by line, into the jobs that C74 says were received.
* C107: the parts of `print` are put beside parts that are undefined when they copy a variable whose option was not given (`Client/Unset.lean`).
* C108: `Convert/PdfMachine.lean` has `pdf_to_printable` with the numbers of the machine and the limits of cairo, and refines it to the function of C48 and C78.
* C110: `Deliver/Machine.lean` puts the function of C108 in the place of the conversion function of C90 and C101, and carries those over: the document that is sent, and that printing ends.
  Sizes that have a meaning follow from names of paper with at most five digits and resolutions of 1 to 40000 dpi.
* C109: `Client/NumberProps.lean` reads the numbers and versions from the bytes that are sent, as RFC 8010 lays them out.
* C111: `Ipp/Depth.lean` has the decoder once more, on a stack with room for a given number of calls, and compares it with the decoder of C21 to C24.
* C112: `Convert/Says.lean` has the texts of pdf2printable and ppm2pwg for the same runs as C100 and C108: the options with their texts, the messages about
  refused command lines, pictures and conversions. The specification has the help in full.
* C113: `Client/Says.lean` has the texts of ippclient for the same runs as C73 to C76; its specification lists the reasons for ending with 1, in their order, each with
  its text, and the help in full.
* C114: `Raster/AnyDoc.lean` starts from the standard's documents of `Raster/Standard.lean` (`PwgFile`, `UrfFile`) instead of from this encoder's output, reads the header
  fields at their offsets, and has the text on the standard error with `describe()` of the headers as a parameter.
* C115: `Convert/Small.lean` has the texts of the small tools; bsplit's runs are an inductive relation between command line, files, outcome and texts, with numbers by
  their own grammar (`IntWord`) and parts by `∃ q, data = p ++ q`.
* C116: `Ipp/Growth.lean` has a size for values, names and groups, and shows that each byte consumed pays for what is kept of it; `Raster/Growth.lean` adds up the files of
  pwg2ppm; `Discovery/Growth.lean` shows that no position of a datagram is visited twice for a name.
* C117: `Ipp/Warns.lean` has what decoding and encoding write to the standard error, beside the functions themselves (`Ipp/WarnsTold.lean`: a refusal for an unknown tag is always told); `Client/LibSays.lean` follows a whole run of ippclient
  and puts it before what the program says itself (C113).
* C118: `Client/Order.lean` shows that the tools depend on what C45's account of a command line says last about each option other than `-v`, and that two accounts with the same
  last words agree in that. For command lines that have no account, the loop over the options is followed with and without `-v`.
* C119: `Discovery/Cut.lean` shows that what can be read of the beginning of a message is what the message says (induction on the runs of `get_addr`), so reading a response that is
  cut off follows the reading of the whole up to where it fails. `Discovery/Garbage.lean` reads any datagram as some records that stand in it, and carries the invariant of C66 and
  C67 over all kinds of datagrams.
* C120: `Discovery/Complaints.lean` has where a record ends or which exception its reading ends with, shows that this is what the reading of C66 does, and follows it over a datagram
  with the lemmas of C119 about beginnings of messages. The texts of exceptions are a parameter.
* C121: `Convert/Scope.lean` adds the destructors of the variables of `pdf_to_printable` to the run of C108: the last reference to a stream surface that has not been finished writes into
  `outBts`. That `cairo_surface_destroy` finishes a surface is taken from cairo's documentation; what is then written is a parameter.
* C122: `Transport/Depth.lean` counts the calls of `requestWrite` along the executions of C38; the invariant adds the one block that can be read. Of the compressor it is asked that it
  takes in all there is, or fills the buffer.
* C123: `Discovery/Lines.lean` has the lines of a text (a text has one division into lines) and the authority of an address by RFC 3986. That known addresses are dotted quads is an
  invariant of the discovery for all datagrams; the lines follow from C96.
* C124: `Discovery/Again.lean` shows that reading a datagram is a list of assignments that depends on the datagram only. Each sets a place to a value or leaves it, so that doing all of
  them again changes nothing but the multiplicity of addresses; with the secure addresses found, `update` is idempotent from the second time on.
* C125: `Life/Spec.lean` says of a list of events what happens to each object by itself; that a list with the objects there are can be kept along is a way to show it. `Life/Pdf.lean` has
  the calls of `pdf_to_printable` that concern objects, with every answer and every exception arbitrary (an exception that nobody catches may end the program without destructors; that is
  not claimed about). Succeeding calls are taken from the documentation: poppler gives either a document or an error. `Life/Upload.lean` has the constructors, destructors and the worker.
* C126: `Job/Writable.lean` joins C63 and C33 (what the parameters of an accepted job are) with C11 (which of them URF can express). That sizes and names fit the fields of the headers is a
  hypothesis; the media position is shown to.
* C127: `Discovery/Numbers.lean`, by induction over the histories of C53. Added when an edit of the modulus of the transaction number went unnoticed.
* C128: `Discovery/Flags.lean`. Datagrams without records leave all that is known as it is; for others it is false (section 5).
* C129: `Life/Libraries.lean`. `LIB` with the rest of its block as one part of the program; `exec` counts how often a library is open. The PDF part runs over the traces of C125. `Life/Functions.lean` has the functions by name.
* C130: `Discovery/SocketErrors.lean`, the loop of C102 with calls that may fail; a failure of `recvfrom` is shown to be what an empty datagram is.
* C73 (`Client/Words.lean` counts the words that each sub-command takes): the accounting of a command line of C45 (which words are options, which are arguments) with the options of ippclient; for each option the value of its
  last use, as `std::stoi`, `std::stoul` or the list of choices gives it. C74: one request after that for the attributes, as in C68 to C71, from the
  words of the command line; `name=value` pairs by splitting at commas. C75: the table of options and attribute places `wanted`, the table of
  checked values `checked`; every step of `print` is shown to be an exception, a refusal or a list of set operations (`Does`), for any printer; the first step that is not fine decides (`C75_any`), and C27 (`applyAll_spec`)
  gives the places. C76: composition of C75 with C52 (the requests), C57 (the document), C63 and C64 (what the job leaves alone). Settings restored from any
  file: attributes read from JSON are maps (every map is filled by assignment); a media-col that is no collection survives the steps of print, and stops finalize. C77: a history of uses of
  `print` (`History`), by induction what is saved for a uuid is that of the last use with `--save`; the attributes that settings make survive their JSON form
  (`Simple`, also sets of one range, which C26 leaves out); C75 gives the places.

Converters (`Verif/Convert`)
* C78, C79: the accounting of a command line of C45 with the options of the two tools; a specification says for each parameter which word of the command line
  it comes from (`Common`, `PdfJob`, `PnmJob`) and what is refused. Page ranges and paper by C14, C17 and C65; the document by C48; the pictures by an
  induction over them and what follows (`readPnm_then`), and C02 and C03 for the pages.
* C80: libjpeg reads by way of the source manager, as a tree of takes and skips with any branching (`Reader`); run on the manager of the code it is compared
  with its meaning on the bytes. Writing: an invariant between buffer, free bytes and output. The library is any that reads back what it writes
  (`Sound`); the color space after libjpeg's `default_decompress_parms`.

## 5. Findings

Properties which are false of the code (negation proved, and a partial theorem for what holds):

* C05: a 1-bit back side that must be mirrored is reversed as a whole byte line; with a width that is not a multiple of 8
  the padding bits of the line end up in front, so the picture moves.
* C09: `raster_to_bmp`'s fill opcode (128, URF) appends white pixels until the line is exactly full; when the rest of the line is not a
  multiple of the white pixel's size it never ends (also with headers that are consistent with themselves).
* C10: `pwg2ppm_main` passes NumColors as chunk size for PWG; 16-bit PWG pages written by ppm2pwg are not readable.
* C13: `ppm2pwg_main` skips comments after the last number of the PNM header, so pixel data that starts with '#' is eaten up to the next
  newline; and a header that ends in a space instead of a newline leaves the space in the pixel data.

* C60: the "white" that `raster_to_bmp` fills gray URF rows with is 0, which is black.
* C61: pwg2ppm writes bitmaps (P4) with a line "255" that the format does not have, so that its output is not a readable picture. Pictures with 16 bits per color
  come back with 8 (`C61_deep_false`), by way of PWG and of URF.

* C14, C17: numbers that do not fit `unsigned long` in page ranges or paper sizes throw `std::out_of_range` out of the parser
  (for paper sizes after the name was changed).
* C17: whole and decimals are rounded separately, so that 1.14 is stored as 1.1400000000000001.
* C63: print-color-mode "bi-level" (and "process-bi-level") gives a color raster when the printer has colors; a media-source keyword
  without a PWG media position (for example "tray-21", or a vendor's) ends `finalize` with `std::out_of_range`, whatever the target format.
* C64: `int y = mm*100` cuts off: US Letter (na_letter_8.5x11in) is sent with a y-dimension of 27939 instead of 27940, likewise 5.5, 22 and 44 inches.
* C65: 279.4 mm at 360 dpi are 3959 instead of 3960 pixels.
* C19: the text converter splits at CR LF but moves on by one character only, so that CR LF gives two line ends.
* C21: when the document data that follows a message starts with 00 00, the end-of-attributes tag and these bytes are taken for an
  attribute without name, and decoding throws.
* C23: a collection that ends within the values of a member (truncated message, or a member name followed by end-collection tokens)
  makes `collectAttributes` call `front()` on an empty list.
* C24: of repeated operation or printer groups only the last is kept; a message without end-of-attributes tag loses its last group.
* C26: dates are written to JSON as strings and come back as strings.
* C28: restoring settings replaces the whole `media-col` collection: members of the collection which were not saved are lost.
* C54: `PreferredChoiceSetting` only looks at the supported list, not at the preferred one; `IntegerChoiceSetting` overflows its loop
  counter for a range that ends at the largest `int` (undefined behaviour).
* C35: when the number of pages is unknown (0, the default), the page sequence is empty, which counts as a single page: with copies made
  locally a two-sided job becomes one-sided.
* C36: `finalize` sets the compression for raster targets whether or not the user set one.
* C33: a listed PWG resolution that differs by 2^31 from the request makes `abs(INT_MIN)` undefined; a request in dots per centimetre is
  taken for dpi; of several RS entries in urf-supported only the first counts.
* C37: copying an `IppPrintJob` drops the formats guessed from the device id, and `runJob` takes the job by value: a format advertised by
  `possibleInputFormats` because of a guess fails with "Failed to determine target format". Octet-stream is advertised as input and never accepted.
* C39: when `_canWrite` is free at the time the network thread ends (for example when the connection fails before the second block), the next
  `write` still returns true, and its data is never sent; only the writes after it return false.
* C40: when a compression is set and nothing is written after it, the compressor is never run: the data is announced as compressed, but not
  even the (empty) compressed stream is sent. And zlib's `avail_in` has 32 bits (curlrequester.cpp 97-101): with compression, of a block of 4 GiB or more
  (a file that is uploaded as it is is one block) only the rest modulo 4 GiB is sent, and the end of the data is signalled as ever (`C40_large_false`).
* C42: references in queries are cut to 12 bits (lines 74 and 152), so that a query of more than 4096 bytes does not ask for the names it
  was given; a label that contains a dot (as printer names do) is asked for as two labels.
* C66, C67: because of the same 12 bits, names in responses of more than 4096 bytes (RFC 6762 allows 9000) are read wrongly: printers in them are
  not found, and the follow-up queries are for names that do not exist.
* C44: `ippsIpRps` is a local variable of `update`: a printer that is reported with ipps because of one response is reported with ipp as well
  when its ipp records come in another response (or when any further response arrives).
* C96: ippdiscover as a whole has both faults: `C96_long_false`, `C96_slow_false`.
* C53: entries of `_outstandingQueries` are erased while a range-for loop visits them (line 118), undefined behaviour as soon as an entry is
  older than two seconds; ages are compared in whole seconds, so that a name asked 2.9 s ago is not asked again.
* C46: sizes are held in `int`: for files of 2 GiB and more `bsplit` does not split where it is told to (an exception for a file of 2^31+1 bytes).
* C47: the TIFF magic numbers contain zero bytes and are compared as C strings, so that any file that starts with "MM" is taken for TIFF.
* C49: the first two entries of `debtArray` are added to in every line and never reset (nor read), so that they grow with the height of the
  image and overflow for images of more than about 38 million lines (which cairo does not make).
* C62: the sum of the three weighted colours falls short of whole numbers, and the fraction is cut off: 65 of the 256 gray levels become one darker in
  8-bit gray (1 becomes 0, 128 becomes 127: `C62_level_false`), but not in 8-bit black, so that the two are not complements of each other. In 1-bit images
  medium gray (128) therefore counts as black.
* C50: the scale is rounded to two decimals, also upwards: an A4 page on A4 paper at 300 dpi is four pixels too high. With resolutions that
  do not divide each other (1200 × 900) the integer division loses the shape; with a paper size in pixels and different resolutions the page
  is drawn wider than the paper.
* C68: names that the printer does not have are dropped in silence when attributes are set (`C68_unknown_false`); of a number only the beginning
  of the text counts, so that "30 minutes" sets 30 (`C68_trailing_false`).
* C69: only `cancelJob` looks at the status of the response: setting attributes, identifying, listing jobs and refreshing report success when
  the printer refuses.
* C70: a job attribute of an unexpected type in a Get-Jobs response ends `getJobs` with an exception that nobody catches.
* C71: a rule for overriding that is chosen by an attribute with several values (or not a text) ends the application of all rules after it, without a
  message (`C71_list_false`); rules see what earlier rules (in order of names) have changed, so that a rule for another printer may apply
  (`C71_chain_false`).
* C73: `--copies 3x` is taken as 3; `-r 4294967896` as 600; negative resolutions wrap around.
* C74: when the printer refuses to cancel a job with a status-message that is not a text, or describes a job with a number that is not one, the exception of
  `get` is caught nowhere (`C74_cancel_exact`, `C74_jobs_exact` say exactly when). `cancel-job --id 3x` cancels job 3 (`C74_wrong_false`).
* C75: the list of print qualities for the error message is made even if no quality is asked for, and `getAlias` throws `std::out_of_range` for values
  other than 3, 4 and 5: a printer that lists another quality can not be printed to at all. Likewise the list of resolutions is read in any case, and one value
  of another type in it ends every `print` with an exception (`Breaks.resolution` in `C75_any`).
* ippclient: `--mime-type application/pdf -` opens a file named `-` in the working directory; a printer that refuses to set attributes, to identify itself or to list jobs
  still gives exit code 0.
* C78: `-r -300` is a resolution of 4294966996, `--copies 3x` is 3 (`C78_numbers_false`); page numbers of 2^64 or more end with an uncaught exception
  (`C78_large_false`); when nothing can be written the exit code is still 0
  (`C78_room_false`): the callback tests `exceptions()`, the mask of states that throw, which is always empty. URF with different resolutions creates an empty
  output before it ends with 1.
* C79: a URF file has the count 0 unless `--num-pages` is given (`C79_count_false`); URF with different resolutions ends with an uncaught exception after the file
  header has been written (`C79_uncaught_false`); a full disk goes unnoticed (`C79_room_false`); white space after the last picture makes the exit code 1,
  although the output is complete (an example of `C79_converts_partial`).
* C82: `resolution_list` never sets `first` to false, so that resolutions are listed as `300x300dpi600x600dpi` (`C82_resolutions_false`).
* C83: `info` ends with an exception if an attribute has another type than expected; IPP allows the out-of-band values `unknown` and `no-value` for any attribute, and
  they are read as texts (`C83_untold_false`).
* C84: after Create-Job the number of the job is known, yet the one shown is read from the reply to the document: if that has attributes of the job without `job-id`, 0 is
  shown (`C84_number_false`), and if `job-id` has another type, `print` ends with 1 although the printer has accepted the document (`C84_accepted_false`).
* C85: `ipp` is replaced by `http`, so that an address without a port leads to port 80, and with `ipps` to port 443, where IPP has 631 (`C85_usual_false`). Discovery leaves
  out the port 631 of `_ipp`, so that a printer announced there is contacted on port 80 (`C85_discovered_false`).
* C86: `doPrint` makes its connection with `CurlIppStreamer cr(_addr, true)`: documents go to a printer without a check of its certificate even if the printer object was
  told to check (`C86_document_false`). `ippclient` never checks, as it leaves the argument of the constructor at its default.
* C87: `write_ppm` inverts 1-bit pages only, so that pages of 8-bit ink (Black8, 255 is black) are written to PGM files (255 is white) as they are: negatives (`C87_negative`
  for all documents, `C87_false` for a black page that is shown white).
* C88: `cmyk2rgb` computes `255 - k - c` in 8 bits without a lower limit; black with one step of cyan is shown as bright red (`C88_false`).
* C89: `doPrintToFile` asks `MiniMime::defaultExtension`, which throws for all but eight formats: plain text, which a printer takes, can not be printed to a file
  (`C89_format_false`). The error that `doPrintToFile` returns is dropped: part of a document is left in the file, and the run succeeds (`C89_incomplete_false`).
* C111: `collectAttributes` calls itself for each collection in a collection, with data from the network and without a limit. An answer of some hundred kilobytes
  exhausts a stack of 8 MB, whatever program reads it; so do `toJSON`, `operator<<` and the destructor for the value that it would give (`C111_proper_false`).
* C113: `ippclient -h` and `ippclient --help` are invalid sub-commands: the help goes to the standard error, and the exit code is 1 (`C113_help_false`). The text for an unknown
  target format has a typing error ("traget").
* C114: a gray URF document of another encoder that uses the fill code is shown with black where it is white (`C114_false`; the defect of C60, for a whole document).
* C115: minimime shows an empty line, with code 0, for a file that is not there (`C115_missing_false`); for pwg2ppm it is an empty file of unknown format. ippdecode ends with 0
  after "Exception caught." (`C115_code_false`). bsplit ends with an exception, not with a message, when the file has fewer bytes than asked for.
* C116: a URF file of 46 bytes makes pwg2ppm ask for a picture of more than 2^39 bytes (`C116_urf_false`): nothing limits the width that a fill code fills, and no length of the
  file is compared with the size in the header. Names of a datagram can be longer than the datagram and than any domain name (`C116_name_false`, `C116_domain_false`): labels of
  up to 191 bytes are accepted, and there is no limit of the whole.
* C117: a library writes to the standard error whatever its caller wants; a run of ippclient that ends with 0 can have texts there (`C117_false`).
* C120: a record whose data does not end where its length says is taken without a complaint, and the next one is read from where the data ended: the check in lines 348-351 of
  ippdiscovery.cpp stands behind the last `break` of the switch and is never reached (`C120_length_false`).
* C121: `outBts` is declared after `surface` and `cairo` in `pdf_to_printable` (pdf2printable.cpp 70-74), and so destroyed before them. When the function is left between the pages of a
  PDF or PostScript document (line 194, a Cairo error; line 206, a block that is not taken, such as for a broken transfer), the surface has not been finished; its release does that, and
  writes into the stream that is gone (`C121_false`, `C121_main_false`). With `outBts` declared first all is well (`C121_order`).
* C122: `requestWrite` calls itself for each block that puts nothing into curl's buffer (curlrequester.cpp 124-129), such as a block without contents (a page of PDF that cairo has not
  written yet) or one that zlib keeps for later. The depth is not bounded for all documents (`C122_false`, `C122_compressed_false`), unless the compiler makes a loop of it.
* C123: the path of a printer (`rp` in its TXT record) is written as it came. With a line feed in it ippdiscover writes a line with an address of the sender's choice, which a script that
  reads the lines takes for a printer (`C123_false`); other control characters reach the terminal.
* C124: `ippsIpRps` holds only what the current datagram brought, so that a second copy of a datagram brings the `ipp` address that the first one held back (`C124_false`; C44). `_As` gets
  an entry for each A record, known or not, and grows with every copy (`C124_grows_false`), as does the time for each update.
* C125: `setCompression` calls `deflateInit2`, and nothing calls `deflateEnd` (curlrequester.cpp 31-36, 156): each job with gzip or deflate leaves the state of zlib behind (`C125_false`,
  `C125_zlib`). All else is given back.
* C126: `finalize` takes any media type (ippprintjob.cpp 161), `make_urf_hdr` looks it up among the 14 of URF with `at` (ppm2pwg.cpp 267-268). With a URF printer that has, say,
  `stationery-lightweight`, a job that asks for it fails with `std::out_of_range` at its first page (`C126_false`). The tools for single files check this before, the client does not.
* C128: a discovery does not look at the flags of a datagram nor at the time to live of a record (lines 277 and 294 read them, nothing uses them). The probe of a host that would like to have
  the name of a printer is taken for an announcement (`C128_false`), and so are the records a printer takes back when it is switched off (`C128_goodbye_false`).
* C129: what `dlsym` answers is not looked at, so that with a library that lacks a function a null pointer is called (`C129_false`; exactly when: `C129_jpeg_exact`). With a cairo before
  1.16 that is so for every PDF file that is to become one (`C129_older_false`).
  The constructor of `bts_source_mgr` keeps a pointer into a library that it closes; this works because `baselinify` has it open, too (`C129_jpeg_partial`).
* C130: if `recvfrom` fails (EINTR, after the program was stopped and goes on) the discovery ends as if nobody else would answer (`C130_false`). What `sendto` answers is not looked at, so that
  without a network the program ends well, with no printers (`C130_sends_false`).
* C90: the defects of C19 and C80 reach the printer (`C90_text_false`).
* C92: `doPrint` takes a status for success if it is below 0xff, where everything else (and RFC 8011) includes 0xff: a job accepted with 0x00FF is reported as failed
  (`C92_accepted_false`).
* C93: ppm2pwg, pdf2printable and baselinify open (and so empty) the output before they read the input: given the same name twice they lose the
  document (`C93_ppm2pwg_false`, `C93_pdf2printable_false`, `C93_baselinify_false`); baselinify then gives an empty buffer to libjpeg.
* C93: bsplit and baselinify end with 0 when the output can not be made (`C93_unwritable_false`).
* C94: ippdecode ends with 0 when the file is no IPP message (`C94_exit_false`).
* C95: with an option after the positional arguments, the message is "Unknown argument:" and the first positional argument, which is in order (`C95_culprit_false`).
* C97: `ippclient print --mime-type application/pdf … -` does not read the standard input, but a file called `-` in the current directory, as the name is made an
  absolute path (ippclient.cpp 494) before it is looked at (pdf2printable.cpp 78); without such a file it ends with 1 (`C97_pdf_false`). pdf2printable itself reads the standard input.
* C98: `bmp_to_pwg` holds the distance of two lines in an `int` (ppm2pwg.cpp 51). With 2^31 bytes per line it reads outside of the bitmap (`C98_outside_false`); with 2^32 it takes
  the first row for all others and writes a wrong page (`C98_lost_false`).
* C100: ppm2pwg believes the sizes in the header of a picture. With `P5`, 65535 and a width of 2^63 a row has 0 bytes after wrapping: a page without pixels is written and the exit code is 0
  (`C100_wraps_false`). A resolution of 0 (`-r 0`) divides by 0 and puts an infinite number into a `uint32_t`, and a width near 2^64 does not fit after it has been a double: undefined
  (`C100_undefined_false`).
* C101: an answer to the request for attributes that ends within a collection makes every sub-command undefined (`C101_truncated_false`). So does, for `info`, a well-formed answer with a
  marker level of 2147483647 out of 1: the percentage does not fit an `int` (`C101_level_false`).
* C102: `receive` gives an empty message for an empty datagram as for a timeout, so anyone on the network can end a discovery by an empty datagram to its port (`C102_empty_false`), or keep
  it going for ever by one byte a second (`C102_ends_false`).
* C103: when a transfer breaks off, the writer learns of it by `_complete` of lthread.h, a plain `bool` that the other thread sets; that is a data race, and so is the following clearing of
  `_data` (`C103_false`). With an atomic `_complete` there would be none (`C103_atomic`).
* C104: `settings_dir() / uuid` takes the uuid as the printer sends it. With "../../.profile" or an absolute path for a uuid, `print --save` overwrites that file (`C104_outside_false`,
  `C104_anywhere`), and `print` reads settings from it; "a" and "./a" share a file (`C104_mixed_false`). Without `USER`, `CONFIG_DIR` adds a null pointer to a string, in every use of a printer
  (`C104_user_false`).
* C106: names and messages of jobs are shown as they are. A job named "a\nState: 3\n2: b" looks like two jobs.
* C107: in `main` of ippclient.cpp the variables `copies`, `hwRes`, `hwResX`, `hwResY`, `quality`, `finishing` and those for the four margins have no initial
  value, but `set_or_fail` copies them whether or not their options were given. So nearly every `print` is formally undefined (in practice the copy is not used).
  The other theorems about `print` are about a program in which these variables have some value.
* C108: cairo gets the size of the image as two `int`. A page of 4294967297 pixels (`-r 1 --paper-size a_4294967297x1in`) has an image of one pixel, and
  `copy_raster_buffer` reads beyond it (`C108_wraps_false`). With `-ry 0` `fixup_scale` divides by 0 (`C108_zero_false`). `poppler_document_get_page` may give null
  (for a damaged page), which is not checked: the page's size is then read from variables without a value (`C108_damaged_false`).
* C110: each of these can be had with `ippclient print` too, with sensible answers from the printer (`C110_wraps_false`, `C110_zero_false`, `C110_damaged_false`).
* C80: `jpeg_save_markers` is called for APP0 and APP1 only: the Adobe marker (APP14) is not kept, so that YCCK pictures are taken for CMYK, RGB for YCbCr
  (`C80_colors_false`). `fill_input_buffer` says that there is data when there is none, so that a cut off file is read beyond its end
  (`C80_cut_false`). The standard error handler ends the whole program, also ippclient, for a wrong file (`C80_exit_false`).
* C81: the page count of a URF file is not compared with the pages (`C81_count_false`).
* C51: a printer that leaves out one of the six marker lists has no supplies at all.
* C55: a level far above the highest level makes the conversion of the percentage to `int` undefined.
* C58: when the conversion fails, the destructor of the streamer signals the end of the data as for a complete document; for `file://`
  printers the failure is not even reported.

Further observations, without a property of their own: ippdecode ends with 0 whatever the message; when printing to a `file://` printer all errors are dropped (see C58), also that the file can not be written; configdir.h makes a string from `getenv("USER")` without a check for null; in pwg2ppm `cmyk2rgb` wraps around when a color and black exceed 255 together; 16-bit color modes end `pdf_to_printable` with an exception instead of an error; in curlrequester.cpp the mutexes are locked in one thread and unlocked in the other,
and `await` may unlock a mutex that is not locked, which the C++ standard leaves undefined; `_complete` in lthread.h is read and written
without synchronisation; a buffer of size 0 would make `requestWrite` call itself for ever; the length check in lines 348-351 of ippdiscovery.cpp can not be reached; 16-bit output of pwg2ppm has the wrong
maximum; a bitmap shorter than the page size is read out of bounds (outcome `ub` in the model).

## 6. Axioms per theorem

From `#print axioms` (tools/axioms.py).

No axioms:

* `Verif.Transport.C103_runs`
* `Verif.Discovery.C120_ends`

Axioms: propext:

* `Verif.Transport.C103_false`
* `Verif.Convert.C121_declared`
* `Verif.Life.Libraries.C129_false`
* `Verif.Life.Libraries.C129_older_false`
* `Verif.Transport.C39_after_end_false`
* `Verif.Transport.C40_compressed_at_end_false`
* `Verif.Printer.C55_percent_false`
* `Verif.Pdf.C88_false`
* `Verif.Raster.C99_either`

Axioms: propext, Classical.choice, Quot.sound:

* `Verif.Raster.C01_page_roundtrip`
* `Verif.Raster.C02_pwg_document`
* `Verif.Raster.C02_file_header`
* `Verif.Raster.C03_urf_document`
* `Verif.Raster.C03_file_header`
* `Verif.Raster.C04_backside_transform`
* `Verif.Raster.C05_mirror_1bit_false`
* `Verif.Raster.C05_mirror_1bit_partial`
* `Verif.Raster.C06_pwg_header`
* `Verif.Raster.C07_transform_fields`
* `Verif.Raster.C08_opcodes_and_size`
* `Verif.Raster.C08_page_opcodes_and_size`
* `Verif.Raster.C09_endless_iff`
* `Verif.Raster.C10_pwg16_false`
* `Verif.Raster.C10_pwg16_partial`
* `Verif.Convert.C100_converts_partial`
* `Verif.Convert.C100_wraps_false`
* `Verif.Convert.C100_undefined_false`
* `Verif.Client.C101_main_partial`
* `Verif.Client.C101_command_partial`
* `Verif.Client.C101_print_partial`
* `Verif.Client.C101_truncated_false`
* `Verif.Client.C101_level_false`
* `Verif.Discovery.C102_heard`
* `Verif.Discovery.C102_shown`
* `Verif.Discovery.C102_empty`
* `Verif.Discovery.C102_empty_false`
* `Verif.Discovery.C102_ends_false`
* `Verif.Transport.C103_atomic`
* `Verif.Transport.C103_unseen_partial`
* `Verif.Client.C104_saves_partial`
* `Verif.Client.C104_restores_partial`
* `Verif.Client.C104_stores_partial`
* `Verif.Client.C104_separate`
* `Verif.Client.C104_uuids`
* `Verif.Client.C104_anywhere`
* `Verif.Client.C104_outside_false`
* `Verif.Client.C104_mixed_false`
* `Verif.Client.C104_user_false`
* `Verif.Client.C104_nameless`
* `Verif.Client.C104_overrides`
* `Verif.Client.C105_pages`
* `Verif.Client.C105_paper`
* `Verif.Client.C105_colors`
* `Verif.Client.C105_pairs`
* `Verif.Client.C105_one`
* `Verif.Client.C106_jobs_partial`
* `Verif.Client.C106_alike`
* `Verif.Client.C106_false`
* `Verif.Client.C107_given`
* `Verif.Client.C107_missing`
* `Verif.Client.C107_plain`
* `Verif.Client.C107_false`
* `Verif.Convert.C108_same_partial`
* `Verif.Convert.C108_document_partial`
* `Verif.Convert.C108_refuses`
* `Verif.Convert.C108_zero_false`
* `Verif.Convert.C108_wraps_false`
* `Verif.Convert.C108_damaged_false`
* `Verif.Convert.C108_help`
* `Verif.Client.C109_numbered`
* `Verif.Client.C109_version`
* `Verif.Raster.C11_urf_expressible`
* `Verif.Deliver.C110_pwg_partial`
* `Verif.Deliver.C110_urf_partial`
* `Verif.Deliver.C110_vector_partial`
* `Verif.Deliver.C110_ends_partial`
* `Verif.Deliver.C110_moderate_partial`
* `Verif.Deliver.C110_main_partial`
* `Verif.Deliver.C110_damaged_false`
* `Verif.Deliver.C110_zero_false`
* `Verif.Deliver.C110_wraps_false`
* `Verif.Ipp.C111_proper_false`
* `Verif.Ipp.C111_false`
* `Verif.Convert.C112_ppm`
* `Verif.Convert.C112_pdf`
* `Verif.Convert.C112_choices`
* `Verif.Client.C113_says`
* `Verif.Client.C113_help`
* `Verif.Client.C113_help_false`
* `Verif.Raster.C114_pwg_partial`
* `Verif.Raster.C114_urf_partial`
* `Verif.Raster.C114_false`
* `Verif.Raster.C114_report`
* `Verif.Convert.C115_bsplit_partial`
* `Verif.Convert.C115_baselinify`
* `Verif.Convert.C115_ippdecode`
* `Verif.Convert.C115_pwg2ppm`
* `Verif.Convert.C115_missing_false`
* `Verif.Convert.C115_code_false`
* `Verif.Discovery.C47_program`
* `Verif.Raster.C116_pwg`
* `Verif.Raster.C116_raster_partial`
* `Verif.Raster.C116_urf_false`
* `Verif.Discovery.C116_name_partial`
* `Verif.Ipp.C117_groups`
* `Verif.Ipp.C117_open`
* `Verif.Ipp.C117_any`
* `Verif.Ipp.C117_ippdecode`
* `Verif.Ipp.C117_encode`
* `Verif.Client.C117_client`
* `Verif.Client.C117_quiet`
* `Verif.Client.C117_false`
* `Verif.Ipp.C117_ippdecode_ends`
* `Verif.Ipp.C117_encode_told`
* `Verif.Client.C118_client`
* `Verif.Client.C118_pdf`
* `Verif.Client.C118_ppm`
* `Verif.Client.C118_verbose`
* `Verif.Client.C118_order`
* `Verif.Discovery.C119_any`
* `Verif.Discovery.C119_stands`
* `Verif.Discovery.C119_buffer`
* `Verif.Pdf.C12_black`
* `Verif.Discovery.C120_texts`
* `Verif.Discovery.C120_quiet`
* `Verif.Discovery.C120_cut`
* `Verif.Discovery.C120_length_false`
* `Verif.Discovery.C120_begins`
* `Verif.Discovery.C120_loop`
* `Verif.Discovery.C120_each`
* `Verif.Convert.C121_order`
* `Verif.Convert.C121_raster`
* `Verif.Convert.C121_exact`
* `Verif.Convert.C121_done`
* `Verif.Convert.C121_main`
* `Verif.Convert.C121_false`
* `Verif.Convert.C121_main_false`
* `Verif.Convert.C121_silent`
* `Verif.Transport.C122_bound`
* `Verif.Transport.C122_returns`
* `Verif.Discovery.C123_leads`
* `Verif.Discovery.C123_lines_partial`
* `Verif.Discovery.C123_false`
* `Verif.Discovery.C124_again_partial`
* `Verif.Discovery.C124_settled`
* `Verif.Discovery.C124_false`
* `Verif.Discovery.C124_grows_false`
* `Verif.Life.Pdf.C125_pdf`
* `Verif.Life.Upload.C125_upload_partial`
* `Verif.Life.Upload.C125_handle`
* `Verif.Life.Upload.C125_zlib`
* `Verif.Life.Upload.C125_job_partial`
* `Verif.Life.Upload.C125_false`
* `Verif.Job.C126_pwg`
* `Verif.Job.C126_urf_partial`
* `Verif.Job.C126_false`
* `Verif.Discovery.C127_distinct`
* `Verif.Discovery.C128_learns_partial`
* `Verif.Discovery.C128_quiet_partial`
* `Verif.Discovery.C128_false`
* `Verif.Discovery.C128_goodbye_false`
* `Verif.Life.Libraries.C129_jpeg_partial`
* `Verif.Life.Libraries.C129_jpeg_exact`
* `Verif.Raster.C13_pnm_pixels_false`
* `Verif.Raster.C13_pnm_last_space_false`
* `Verif.Raster.C13_pnm_pixels_partial`
* `Verif.Discovery.C130_told_partial`
* `Verif.Discovery.C130_quiet_partial`
* `Verif.Discovery.C130_failure`
* `Verif.Discovery.C130_false`
* `Verif.Discovery.C130_sends_false`
* `Verif.Discovery.C130_option`
* `Verif.C14_page_ranges_false`
* `Verif.C14_page_ranges_partial`
* `Verif.C14_set_page_range_partial`
* `Verif.C14_exact`
* `Verif.C14_set_exact`
* `Verif.C15_page_sequence`
* `Verif.C15_page_sequence_of_expression`
* `Verif.C15_page_sequence_any`
* `Verif.C16_copies`
* `Verif.C17_paper_size_false`
* `Verif.C17_nearest_false`
* `Verif.C17_paper_size_partial`
* `Verif.C17_exact`
* `Verif.Text.C19_line_ends_false`
* `Verif.Text.C19_line_ends_exact_partial`
* `Verif.Text.C19_line_ends_partial`
* `Verif.Text.C20_join_split`
* `Verif.Text.C20_split_pieces`
* `Verif.Text.C20_split_join`
* `Verif.Ipp.C21_message_roundtrip_false`
* `Verif.Ipp.C21_zero_document_false`
* `Verif.Ipp.C21_message_roundtrip_partial`
* `Verif.Ipp.C22_attribute_order`
* `Verif.Ipp.C24_groups_false`
* `Verif.Ipp.C24_repeated_group_false`
* `Verif.Ipp.C24_groups_partial`
* `Verif.Ipp.C24_groups_unterminated_partial`
* `Verif.Ipp.C24_groups_exact`
* `Verif.Ipp.C25_request_ids`
* `Verif.Ipp.C26_json_roundtrip_partial`
* `Verif.Ipp.C26_json_group_partial`
* `Verif.Ipp.C26_json_dates_false`
* `Verif.Ipp.C26_json_roundtrip_false`
* `Verif.Ipp.C26_json_exact`
* `Verif.Ipp.C26_json_group_exact`
* `Verif.Ipp.C27_independent_settings`
* `Verif.Ipp.C27_collection_removed`
* `Verif.Ipp.C27_job_settings`
* `Verif.Ipp.C27_foreign`
* `Verif.Ipp.C28_restore_partial`
* `Verif.Ipp.C28_restore_attributes_partial`
* `Verif.Ipp.C28_no_uuid`
* `Verif.Ipp.C28_restore_false`
* `Verif.Job.C30_document_format`
* `Verif.Job.C30_target_convertible`
* `Verif.Job.C31_copies_once`
* `Verif.Job.C31_page_sequence`
* `Verif.Job.C31_collation`
* `Verif.Job.C32_page_ranges_once`
* `Verif.Job.C32_pages_rendered`
* `Verif.Job.C33_resolution_pwg_partial`
* `Verif.Job.C33_resolution_pwg_defined`
* `Verif.Job.C33_resolution_urf_partial`
* `Verif.Job.C33_resolution_pwg_false`
* `Verif.Job.C33_resolution_dpcm_false`
* `Verif.Job.C33_resolution_urf_false`
* `Verif.Job.C34_back_side_pwg`
* `Verif.Job.C34_back_side_urf`
* `Verif.Job.C34_format`
* `Verif.Job.C35_two_sided_false`
* `Verif.Job.C35_two_sided_partial`
* `Verif.Job.C36_compression_false`
* `Verif.Job.C36_compression_partial`
* `Verif.Job.C36_compression_sent_partial`
* `Verif.Printer.C37_listed_formats_partial`
* `Verif.Printer.C37_not_copied_partial`
* `Verif.Printer.C37_guessed_formats_false`
* `Verif.Printer.C37_octet_stream_false`
* `Verif.Transport.C38_sent_prefix`
* `Verif.Transport.C38_all_sent_at_end`
* `Verif.Transport.C38_exclusive`
* `Verif.Transport.C38_regions`
* `Verif.Transport.C39_no_deadlock`
* `Verif.Transport.C39_terminates`
* `Verif.Transport.C39_call_returns`
* `Verif.Transport.C39_end_only_in_await`
* `Verif.Transport.C39_after_end_partial`
* `Verif.Transport.C40_sent`
* `Verif.Transport.C40_compressed_at_end_partial`
* `Verif.Transport.C40_zlib_partial`
* `Verif.Discovery.C41_ends`
* `Verif.Discovery.C41_depth`
* `Verif.Discovery.C42_decoder`
* `Verif.Discovery.C42_query_partial`
* `Verif.Discovery.C42_dots_false`
* `Verif.Discovery.C42_long_false`
* `Verif.Discovery.C43_once`
* `Verif.Discovery.C43_once_meant`
* `Verif.Discovery.C44_partial`
* `Verif.Discovery.C44_false`
* `Verif.Discovery.C44_exact_partial`
* `Verif.Tools.C45_sound`
* `Verif.Tools.C45_complete`
* `Verif.Tools.C45_message`
* `Verif.Tools.C46_split_partial`
* `Verif.Tools.C46_false`
* `Verif.Tools.C47_recognised`
* `Verif.Tools.C47_exact_partial`
* `Verif.Tools.C47_unknown`
* `Verif.Tools.C47_tiff_false`
* `Verif.Discovery.C47_program`
* `Verif.Pdf.C48_stream`
* `Verif.Pdf.C48_stop`
* `Verif.Pdf.C48_first_failure`
* `Verif.Pdf.C48_refused`
* `Verif.Pdf.C48_pwg_document`
* `Verif.Pdf.C48_urf_document`
* `Verif.Pdf.C48_success`
* `Verif.Pdf.C48_success_pwg`
* `Verif.Pdf.C48_success_urf`
* `Verif.Pdf.C49_partial`
* `Verif.Pdf.C49_debts_partial`
* `Verif.Pdf.C49_false`
* `Verif.Pdf.C49_bounds_false`
* `Verif.Pdf.C49_code_sums`
* `Verif.Pdf.C50_shape_partial`
* `Verif.Pdf.C50_centred_partial`
* `Verif.Pdf.C50_scale_partial`
* `Verif.Pdf.C50_fits_partial`
* `Verif.Pdf.C50_over_partial`
* `Verif.Pdf.C50_fits_false`
* `Verif.Pdf.C50_shape_false`
* `Verif.Pdf.C50_pixels_false`
* `Verif.Printer.C51_supplies`
* `Verif.Printer.C51_colors`
* `Verif.Printer.C51_one_per_marker_partial`
* `Verif.Printer.C51_one_per_marker_false`
* `Verif.Client.C51_defined`
* `Verif.Printer.C52_two_stage`
* `Verif.Printer.C52_one_stage`
* `Verif.Printer.C52_file`
* `Verif.Printer.C52_document_attributes`
* `Verif.Discovery.C53_apart_partial`
* `Verif.Discovery.C53_discover_partial`
* `Verif.Discovery.C53_asked_partial`
* `Verif.Discovery.C53_throttled`
* `Verif.Discovery.C53_short_partial`
* `Verif.Discovery.C53_asked_false`
* `Verif.Discovery.C53_ageing_false`
* `Verif.Ipp.C54_choice`
* `Verif.Ipp.C54_choice_bad_type`
* `Verif.Ipp.C54_integer`
* `Verif.Ipp.C54_integer_choice_partial`
* `Verif.Ipp.C54_integer_choice_false`
* `Verif.Ipp.C54_preferred_false`
* `Verif.Printer.C55_no_highest`
* `Verif.Printer.C56_firmware`
* `Verif.Printer.C56_warning`
* `Verif.Client.C56_defined`
* `Verif.Printer.C57_document`
* `Verif.Printer.C58_failure_reported_partial`
* `Verif.Printer.C58_failed_conversion_false`
* `Verif.Printer.C58_file_false`
* `Verif.Discovery.C59_complete`
* `Verif.Raster.C61_tool_chain_false`
* `Verif.Raster.C61_tool_chain_partial`
* `Verif.Raster.C61_bitmaps_partial`
* `Verif.Raster.C61_deep_false`
* `Verif.Raster.C61_sides_partial`
* `Verif.Pdf.C62_code_rounds`
* `Verif.Pdf.C62_code_ends`
* `Verif.Pdf.C62_level_false`
* `Verif.Pdf.C62_complement_false`
* `Verif.Job.C63_quality`
* `Verif.Job.C63_colors_partial`
* `Verif.Job.C63_colors_false`
* `Verif.Job.C63_media_type`
* `Verif.Job.C63_media_source`
* `Verif.Job.C63_sent_as_asked`
* `Verif.Job.C63_any_source_false`
* `Verif.Job.C64_paper`
* `Verif.Job.C64_margins`
* `Verif.Job.C64_media`
* `Verif.Job.C64_size_false`
* `Verif.C65_pixels_partial`
* `Verif.C65_pixels_false`
* `Verif.C65_lengths`
* `Verif.Discovery.C66_secure_partial`
* `Verif.Discovery.C66_plain_partial`
* `Verif.Discovery.C66_sound_partial`
* `Verif.Discovery.C66_long_false`
* `Verif.Discovery.C67_described_partial`
* `Verif.Discovery.C67_located_partial`
* `Verif.Discovery.C67_queries`
* `Verif.Discovery.C67_long_false`
* `Verif.Printer.C68_set_partial`
* `Verif.Printer.C68_refuses`
* `Verif.Printer.C68_unknown_false`
* `Verif.Printer.C68_trailing_false`
* `Verif.Printer.C69_cancel_partial`
* `Verif.Printer.C69_network_partial`
* `Verif.Printer.C69_identify_unsupported`
* `Verif.Printer.C69_identify_request`
* `Verif.Printer.C69_refused_false`
* `Verif.Printer.C70_jobs`
* `Verif.Printer.C70_cancel`
* `Verif.Printer.C70_types_false`
* `Verif.Printer.C71_overrides_partial`
* `Verif.Printer.C71_refresh`
* `Verif.Printer.C71_unreachable`
* `Verif.Printer.C71_fake_json`
* `Verif.Printer.C71_fake_message`
* `Verif.Printer.C71_list_false`
* `Verif.Printer.C71_chain_false`
* `Verif.Printer.C71_fake_wrong`
* `Verif.Printer.C72_guessed`
* `Verif.Printer.C72_job`
* `Verif.Client.C73_print`
* `Verif.Client.C73_rejects`
* `Verif.Client.C73_help`
* `Verif.Client.C73_numbers_false`
* `Verif.Client.C73_words`
* `Verif.Client.C74_unreachable`
* `Verif.Client.C74_attrs`
* `Verif.Client.C74_cancel_partial`
* `Verif.Client.C74_set_partial`
* `Verif.Client.C74_jobs_partial`
* `Verif.Client.C74_identify_partial`
* `Verif.Client.C74_cancel_exact`
* `Verif.Client.C74_jobs_exact`
* `Verif.Client.C74_identify_exact`
* `Verif.Client.C74_set_exact`
* `Verif.Client.C74_no_attrs`
* `Verif.Client.C74_cancel_number`
* `Verif.Client.C74_wrong_false`
* `Verif.Client.C75_set`
* `Verif.Client.C75_refused`
* `Verif.Client.C75_any`
* `Verif.Client.C75_start`
* `Verif.Client.C75_quality_false`
* `Verif.Client.C75_restored`
* `Verif.Client.C75_foreign`
* `Verif.Client.C76_sent_partial`
* `Verif.Deliver.C76_file_partial`
* `Verif.Client.C76_always_partial`
* `Verif.Client.C76_to_file`
* `Verif.Client.C77_restored`
* `Verif.Client.C77_next`
* `Verif.Client.C77_only_save`
* `Verif.Client.C77_agrees_partial`
* `Verif.Client.C77_files_partial`
* `Verif.Client.C77_files_next_partial`
* `Verif.Convert.C78_converts_partial`
* `Verif.Convert.C78_rejects`
* `Verif.Convert.C78_help`
* `Verif.Convert.C78_document_partial`
* `Verif.Convert.C78_numbers_false`
* `Verif.Convert.C78_room_false`
* `Verif.Convert.C78_large_false`
* `Verif.Convert.C78_stops`
* `Verif.Convert.C78_unopened`
* `Verif.Convert.C78_success`
* `Verif.Convert.C79_converts_partial`
* `Verif.Convert.C79_refuses`
* `Verif.Convert.C79_rejects`
* `Verif.Convert.C79_help`
* `Verif.Convert.C79_count_false`
* `Verif.Convert.C79_uncaught_false`
* `Verif.Convert.C79_room_false`
* `Verif.Jpeg.C80_destination`
* `Verif.Jpeg.C80_picture_partial`
* `Verif.Jpeg.C80_colors_partial`
* `Verif.Jpeg.C80_colors_false`
* `Verif.Jpeg.C80_cut_false`
* `Verif.Jpeg.C80_exit_false`
* `Verif.Raster.C81_complete`
* `Verif.Raster.C81_cut`
* `Verif.Raster.C81_before`
* `Verif.Raster.C81_appended`
* `Verif.Raster.C81_exit`
* `Verif.Raster.C81_names`
* `Verif.Raster.C81_tool_chain`
* `Verif.Raster.C81_count_false`
* `Verif.Client.C82_texts`
* `Verif.Client.C82_numbers`
* `Verif.Client.C82_media`
* `Verif.Client.C82_range`
* `Verif.Client.C82_quality`
* `Verif.Client.C82_resolutions_partial`
* `Verif.Client.C82_resolutions_false`
* `Verif.Client.C82_message`
* `Verif.Client.C82_advice`
* `Verif.Client.C82_written`
* `Verif.Client.C82_none`
* `Verif.Client.C82_empty`
* `Verif.Client.C83_info`
* `Verif.Client.C83_shown`
* `Verif.Client.C83_untold_false`
* `Verif.Client.C84_shown`
* `Verif.Client.C84_end`
* `Verif.Client.C84_number_false`
* `Verif.Client.C84_accepted_false`
* `Verif.Printer.C85_announced`
* `Verif.Printer.C85_named`
* `Verif.Printer.C85_usual_false`
* `Verif.Printer.C85_discovered_partial`
* `Verif.Printer.C85_discovered_false`
* `Verif.Printer.C86_requests_partial`
* `Verif.Printer.C86_document_false`
* `Verif.Pdf.C87_color_partial`
* `Verif.Pdf.C87_gray_partial`
* `Verif.Pdf.C87_negative`
* `Verif.Pdf.C87_false`
* `Verif.Pdf.C87_bitmap_partial`
* `Verif.Pdf.C87_color_sides`
* `Verif.Pdf.C87_gray_sides`
* `Verif.Pdf.C87_bitmap_sides`
* `Verif.Pdf.C88_partial`
* `Verif.Printer.C89_same_partial`
* `Verif.Printer.C89_told`
* `Verif.Printer.C89_format_false`
* `Verif.Printer.C89_incomplete_false`
* `Verif.Printer.C89_made`
* `Verif.Deliver.C90_pwg`
* `Verif.Deliver.C90_urf`
* `Verif.Deliver.C90_vector`
* `Verif.Deliver.C90_upload`
* `Verif.Deliver.C90_text_partial`
* `Verif.Deliver.C90_text_false`
* `Verif.Deliver.C90_jpeg_partial`
* `Verif.Deliver.C90_unread`
* `Verif.Deliver.C91_pwg_partial`
* `Verif.Deliver.C91_urf_partial`
* `Verif.Deliver.C91_vector_partial`
* `Verif.Deliver.C91_upload_partial`
* `Verif.Deliver.C91_text_partial`
* `Verif.Deliver.C91_text_false`
* `Verif.Deliver.C91_jpeg_partial`
* `Verif.Deliver.C91_main`
* `Verif.Printer.C92_success`
* `Verif.Printer.C92_refused`
* `Verif.Printer.C92_unreachable`
* `Verif.Printer.C92_accepted_partial`
* `Verif.Printer.C92_accepted_false`
* `Verif.Convert.C93_others`
* `Verif.Convert.C93_ppm2pwg_partial`
* `Verif.Convert.C93_pdf2printable_partial`
* `Verif.Convert.C93_bsplit_partial`
* `Verif.Convert.C93_baselinify_partial`
* `Verif.Convert.C93_pwg2ppm`
* `Verif.Convert.C93_ppm2pwg_false`
* `Verif.Convert.C93_pdf2printable_false`
* `Verif.Convert.C93_baselinify_false`
* `Verif.Convert.C93_unwritable_false`
* `Verif.Convert.C93_unopened`
* `Verif.Convert.C93_words`
* `Verif.Ipp.C94_shows_partial`
* `Verif.Ipp.C94_ends`
* `Verif.Ipp.C94_exit_false`
* `Verif.Ipp.C94_unterminated`
* `Verif.Tools.C95_message`
* `Verif.Tools.C95_one_message`
* `Verif.Tools.C95_help`
* `Verif.Tools.C95_subcommands`
* `Verif.Tools.C95_culprit_false`
* `Verif.Discovery.C96_help`
* `Verif.Discovery.C96_unknown`
* `Verif.Discovery.C96_shown_partial`
* `Verif.Discovery.C96_ends_partial`
* `Verif.Discovery.C96_found_partial`
* `Verif.Discovery.C96_long_false`
* `Verif.Discovery.C96_slow_false`
* `Verif.Deliver.C97_upload_partial`
* `Verif.Deliver.C97_text_partial`
* `Verif.Deliver.C97_jpeg_partial`
* `Verif.Deliver.C97_untyped`
* `Verif.Deliver.C97_pdf_false`
* `Verif.Deliver.C97_false`
* `Verif.Raster.Ptr.C98_memory_partial`
* `Verif.Raster.Ptr.bmpToPwg_refines`
* `Verif.Raster.Ptr.C98_outside_false`
* `Verif.Raster.Ptr.C98_lost_false`
* `Verif.Raster.C99_pwg`
* `Verif.Raster.C99_urf`
* `Verif.Raster.C99_unambiguous`

Axioms: propext, Quot.sound:

* `Verif.Raster.C06_pwg_header_decode`
* `Verif.Raster.C08_size_bound_attained`
* `Verif.Raster.C09_decoding_ends_false`
* `Verif.Raster.C09_decoding_ends_consistent_header_false`
* `Verif.Raster.C09_decoding_ends_partial`
* `Verif.Raster.C09_otherwise_ends`
* `Verif.Raster.C09_result_size`
* `Verif.Ipp.C111_enough_partial`
* `Verif.Ipp.C111_fuzz_partial`
* `Verif.Ipp.C111_deep_false`
* `Verif.Ipp.C116_message`
* `Verif.Discovery.C116_name_false`
* `Verif.Discovery.C116_domain_false`
* `Verif.Pdf.C12_lossless`
* `Verif.Transport.C122_false`
* `Verif.Transport.C122_compressed_false`
* `Verif.Discovery.C127_numbers`
* `Verif.Life.Libraries.C129_pdf`
* `Verif.Life.Libraries.C129_pdf_functions_partial`
* `Verif.Raster.C18_row_bytes`
* `Verif.Ipp.C23_decoding_ends`
* `Verif.Ipp.C23_no_ub_false`
* `Verif.Ipp.C23_no_ub_partial`
* `Verif.Ipp.C23_no_members_partial`
* `Verif.Ipp.C27_no_empty`
* `Verif.Job.C29_convert_fun`
* `Verif.Job.C29_target_format`
* `Verif.Job.C29_target_exists`
* `Verif.Job.C29_advertised`
* `Verif.Transport.C40_large_false`
* `Verif.Discovery.C53_defined_partial`
* `Verif.Printer.C55_percent_partial`
* `Verif.Raster.C60_any_encoder_false`
* `Verif.Raster.C60_any_encoder_partial`
* `Verif.Raster.C60_unambiguous`
* `Verif.Pdf.C62_gray`
* `Verif.Pdf.C62_black`
* `Verif.Pdf.C62_color`
* `Verif.Pdf.C62_ends`
* `Verif.Jpeg.C80_source`
