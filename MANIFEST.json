{
 "claims": [
  {
   "property": "C01",
   "status": "proved",
   "theorems": [
    "Verif.Raster.C01_page_roundtrip"
   ],
   "note": "Any bitmap, any rest of stream, PWG and URF."
  },
  {
   "property": "C02",
   "status": "proved",
   "theorems": [
    "Verif.Raster.C02_pwg_document",
    "Verif.Raster.C02_file_header"
   ],
   "note": "Any list of 1-bit/8-bit pages."
  },
  {
   "property": "C03",
   "status": "proved",
   "theorems": [
    "Verif.Raster.C03_urf_document",
    "Verif.Raster.C03_file_header"
   ],
   "note": "Any list of pages with URF-capable parameters."
  },
  {
   "property": "C04",
   "status": "proved",
   "theorems": [
    "Verif.Raster.C04_backside_transform"
   ],
   "note": "Multi-bit modes, and 1-bit modes with widths that are multiples of 8."
  },
  {
   "property": "C05",
   "status": "partial",
   "theorems": [
    "Verif.Raster.C05_mirror_1bit_false",
    "Verif.Raster.C05_mirror_1bit_partial"
   ],
   "note": "False of the code: with width not a multiple of 8 the padding moves to the front. Holds for multiples of 8."
  },
  {
   "property": "C06",
   "status": "proved",
   "theorems": [
    "Verif.Raster.C06_pwg_header",
    "Verif.Raster.C06_pwg_header_decode"
   ],
   "note": "Length, every field at its documented offset, decoding."
  },
  {
   "property": "C07",
   "status": "proved",
   "theorems": [
    "Verif.Raster.C07_transform_fields"
   ],
   "note": ""
  },
  {
   "property": "C08",
   "status": "proved",
   "theorems": [
    "Verif.Raster.C08_opcodes_and_size",
    "Verif.Raster.C08_size_bound_attained",
    "Verif.Raster.C08_page_opcodes_and_size"
   ],
   "note": "The size bound is n*c + (n+2)/3 and is attained."
  },
  {
   "property": "C09",
   "status": "partial",
   "theorems": [
    "Verif.Raster.C09_decoding_ends_false",
    "Verif.Raster.C09_decoding_ends_consistent_header_false",
    "Verif.Raster.C09_decoding_ends_partial",
    "Verif.Raster.C09_endless_iff",
    "Verif.Raster.C09_otherwise_ends",
    "Verif.Raster.C09_result_size"
   ],
   "note": "False of the code: the fill-with-white loop never ends if the row is too long already or the rest is not a multiple of the white pixel. The exact condition is proved; in all other cases decoding ends with a result of the announced size or an exception."
  },
  {
   "property": "C10",
   "status": "partial",
   "theorems": [
    "Verif.Raster.C10_pwg16_false",
    "Verif.Raster.C10_pwg16_partial"
   ],
   "note": "False of the code: pwg2ppm passes the number of colors as chunk size. The decoder itself handles these pages when given the right chunk size."
  },
  {
   "property": "C100",
   "status": "partial",
   "theorems": [
    "Verif.Convert.C100_converts_partial",
    "Verif.Convert.C100_wraps_false",
    "Verif.Convert.C100_undefined_false"
   ],
   "note": "Proved for well-formed pictures with rows of less than 2^31 bytes. False for announced sizes that wrap (a picture without pixels becomes an empty page), and undefined for a resolution of 0 and widths near 2^64."
  },
  {
   "property": "C101",
   "status": "partial",
   "theorems": [
    "Verif.Client.C101_main_partial",
    "Verif.Client.C101_command_partial",
    "Verif.Client.C101_print_partial",
    "Verif.Client.C101_truncated_false",
    "Verif.Client.C101_level_false"
   ],
   "note": "Proved when no answer ends within a collection (C23) and the numbers in six attributes, in saved settings and in four options are of a sensible size; nothing else is asked of the answers. False without either condition. Running out of memory is not modelled."
  },
  {
   "property": "C102",
   "status": "partial",
   "theorems": [
    "Verif.Discovery.C102_heard",
    "Verif.Discovery.C102_shown",
    "Verif.Discovery.C102_empty",
    "Verif.Discovery.C102_empty_false",
    "Verif.Discovery.C102_ends_false"
   ],
   "note": "Proved when none of the datagrams in time is empty. An empty one ends the discovery at once (C102_empty, C102_empty_false). An end within any fixed time is not certain (C102_ends_false). Failing and interrupted calls are not modelled."
  },
  {
   "property": "C103",
   "status": "partial",
   "theorems": [
    "Verif.Transport.C103_atomic",
    "Verif.Transport.C103_unseen_partial",
    "Verif.Transport.C103_runs",
    "Verif.Transport.C103_false"
   ],
   "note": "Proved for all executions if _complete were atomic, and as the code is for executions in which the writer does not learn of the end of the network thread by _complete. False otherwise: _complete is a plain bool, and with it _data. The mutexes are taken as semaphores (C38)."
  },
  {
   "property": "C104",
   "status": "partial",
   "theorems": [
    "Verif.Client.C104_saves_partial",
    "Verif.Client.C104_restores_partial",
    "Verif.Client.C104_stores_partial",
    "Verif.Client.C104_separate",
    "Verif.Client.C104_uuids",
    "Verif.Client.C104_anywhere",
    "Verif.Client.C104_outside_false",
    "Verif.Client.C104_mixed_false",
    "Verif.Client.C104_user_false",
    "Verif.Client.C104_nameless",
    "Verif.Client.C104_overrides"
   ],
   "note": "Proved for uuids that a file name can be, which those by the standards are (C104_uuids). False of the code: the uuid becomes a path unchecked, so that a printer can have any file of the user overwritten (C104_outside_false, C104_anywhere), and two printers may share a file (C104_mixed_false); without USER in the environment the directory is made from a null pointer (C104_user_false). Links in the file system are not modelled; json11 is a parameter."
  },
  {
   "property": "C105",
   "status": "proved",
   "theorems": [
    "Verif.Client.C105_pages",
    "Verif.Client.C105_paper",
    "Verif.Client.C105_colors",
    "Verif.Client.C105_pairs",
    "Verif.Client.C105_one"
   ],
   "note": "The expressions are read from their text by a parser for the part of the ECMAScript grammar that they use. That libstdc++ may run out of stack for very long texts is not modelled."
  },
  {
   "property": "C106",
   "status": "partial",
   "theorems": [
    "Verif.Client.C106_jobs_partial",
    "Verif.Client.C106_alike",
    "Verif.Client.C106_false"
   ],
   "note": "Read back exactly when no name and no message has a line feed; false otherwise: a name with line feeds looks like another job."
  },
  {
   "property": "C107",
   "status": "partial",
   "theorems": [
    "Verif.Client.C107_given",
    "Verif.Client.C107_missing",
    "Verif.Client.C107_plain",
    "Verif.Client.C107_false"
   ],
   "note": "Holds when the ten options with numbers are all given; false otherwise: the variables are copied into set_or_fail without a value."
  },
  {
   "property": "C108",
   "status": "partial",
   "theorems": [
    "Verif.Convert.C108_same_partial",
    "Verif.Convert.C108_document_partial",
    "Verif.Convert.C108_refuses",
    "Verif.Convert.C108_zero_false",
    "Verif.Convert.C108_wraps_false",
    "Verif.Convert.C108_damaged_false",
    "Verif.Convert.C108_help"
   ],
   "note": "Proved for pages below 2^32 pixels in both directions, all pages there, and not just one resolution of 0; false otherwise: a larger page gets a smaller image, a damaged page is sized by variables without a value, and a resolution of 0 is divided by."
  },
  {
   "property": "C109",
   "status": "proved",
   "theorems": [
    "Verif.Client.C109_numbered",
    "Verif.Client.C109_version"
   ],
   "note": "Every command line, world and reply; the counter starts at 1 as in the code."
  },
  {
   "property": "C11",
   "status": "proved",
   "theorems": [
    "Verif.Raster.C11_urf_expressible"
   ],
   "note": ""
  },
  {
   "property": "C110",
   "status": "partial",
   "theorems": [
    "Verif.Deliver.C110_pwg_partial",
    "Verif.Deliver.C110_urf_partial",
    "Verif.Deliver.C110_vector_partial",
    "Verif.Deliver.C110_ends_partial",
    "Verif.Deliver.C110_moderate_partial",
    "Verif.Deliver.C110_main_partial",
    "Verif.Deliver.C110_damaged_false",
    "Verif.Deliver.C110_zero_false",
    "Verif.Deliver.C110_wraps_false"
   ],
   "note": "The documents (C110_pwg_partial, C110_urf_partial, C110_vector_partial) and the end (C110_ends_partial, C110_moderate_partial, C110_main_partial) for undamaged pages and sizes with a meaning, which resolutions from 1 to 40000 dpi give. False otherwise: a damaged page (C110_damaged_false), a resolution of 0 in one direction (C110_zero_false), pages of 2^32 pixels (C110_wraps_false) are undefined behaviour."
  },
  {
   "property": "C111",
   "status": "partial",
   "theorems": [
    "Verif.Ipp.C111_enough_partial",
    "Verif.Ipp.C111_fuzz_partial",
    "Verif.Ipp.C111_deep_false",
    "Verif.Ipp.C111_proper_false",
    "Verif.Ipp.C111_false"
   ],
   "note": "Proved for messages of fewer than 13 + 10 n bytes on a stack for n calls, and this bound is exact. False of the code: no stack is enough for all messages, 16 bytes of a proper message make one call more. The size of a frame is not modelled."
  },
  {
   "property": "C112",
   "status": "proved",
   "theorems": [
    "Verif.Convert.C112_ppm",
    "Verif.Convert.C112_pdf",
    "Verif.Convert.C112_choices"
   ],
   "note": "With the arithmetic of the machine. What the libraries say about a failure is a parameter; debug output and what the run-time system says about an exception that nobody catches are not modelled."
  },
  {
   "property": "C113",
   "status": "partial",
   "theorems": [
    "Verif.Client.C113_says",
    "Verif.Client.C113_help",
    "Verif.Client.C113_help_false"
   ],
   "note": "Proved except for the last sentence, which is false: a request for help without a sub-command is an invalid sub-command (C113_help_false). Texts of exceptions, of the network and of libraries are parameters; what the library itself writes to the standard error is in C117; debug output, and what the run-time system says about an exception that nobody catches are not modelled."
  },
  {
   "property": "C114",
   "status": "partial",
   "theorems": [
    "Verif.Raster.C114_pwg_partial",
    "Verif.Raster.C114_urf_partial",
    "Verif.Raster.C114_false",
    "Verif.Raster.C114_report"
   ],
   "note": "Proved, except for gray URF pages with fill codes, for which it is false: they are white and shown black (C114_false, as in C60), and for bitmaps, which get a line \"255\" too much (as in C61; C114_pwg_partial says so exactly). Other color spaces and depths are in C10, C87 and C88. describe() of the headers is a parameter, because its source is not in the repository."
  },
  {
   "property": "C115",
   "status": "partial",
   "theorems": [
    "Verif.Convert.C115_bsplit_partial",
    "Verif.Convert.C115_baselinify",
    "Verif.Convert.C115_ippdecode",
    "Verif.Convert.C115_pwg2ppm",
    "Verif.Convert.C115_missing_false",
    "Verif.Convert.C115_code_false",
    "Verif.Discovery.C47_program"
   ],
   "note": "Proved for bsplit with files of less than 2^31 bytes (C46 for larger ones), baselinify, ippdecode, pwg2ppm and (C47_program) minimime. The last sentence is false: minimime shows an empty line and pwg2ppm reports an unknown format for a file that is not there, and ippdecode ends with 0 after an exception. What libjpeg prints, and what the run-time system says about an exception that nobody catches, is not modelled."
  },
  {
   "property": "C116",
   "status": "partial",
   "theorems": [
    "Verif.Ipp.C116_message",
    "Verif.Raster.C116_pwg",
    "Verif.Raster.C116_raster_partial",
    "Verif.Raster.C116_urf_false",
    "Verif.Discovery.C116_name_partial",
    "Verif.Discovery.C116_name_false",
    "Verif.Discovery.C116_domain_false"
   ],
   "note": "Proved for messages, PWG files, and with weaker bounds for URF files (2^40 times) and names (192 times the datagram). As stated it is false for URF, where 46 bytes become a picture of more than 2^39, and for names, which a reference can lead into labels that have been read already. Sizes of objects in memory beyond values and bytes are not modelled."
  },
  {
   "property": "C117",
   "status": "partial",
   "theorems": [
    "Verif.Ipp.C117_groups",
    "Verif.Ipp.C117_open",
    "Verif.Ipp.C117_any",
    "Verif.Ipp.C117_ippdecode",
    "Verif.Ipp.C117_encode",
    "Verif.Client.C117_client",
    "Verif.Client.C117_quiet",
    "Verif.Client.C117_false",
    "Verif.Ipp.C117_ippdecode_ends",
    "Verif.Ipp.C117_encode_told"
   ],
   "note": "Proved with the texts of json11 and of exceptions as parameters. That there is nothing on the standard error after a run that ends with 0 is false (C117_false): warnings about unsupported attributes, complaints about overrides and the names of debug files go there. Debug output (-v) and runs that do not end with 0 are not in C117_client (the latter are in C113 as far as the program speaks itself)."
  },
  {
   "property": "C118",
   "status": "proved",
   "theorems": [
    "Verif.Client.C118_client",
    "Verif.Client.C118_pdf",
    "Verif.Client.C118_ppm",
    "Verif.Client.C118_verbose",
    "Verif.Client.C118_order"
   ],
   "note": "The debug output itself is not modelled; that computing it changes nothing and can not fail has been read from the code."
  },
  {
   "property": "C119",
   "status": "proved",
   "theorems": [
    "Verif.Discovery.C119_any",
    "Verif.Discovery.C119_stands",
    "Verif.Discovery.C119_buffer"
   ],
   "note": "As with C66, for the sendQuery of the program, or the one that is meant where its behaviour is undefined (C53)."
  },
  {
   "property": "C12",
   "status": "proved",
   "theorems": [
    "Verif.Pdf.C12_lossless",
    "Verif.Pdf.C12_black"
   ],
   "note": "Every image: cmyk2rgb of the bytes made for CMYK gives back the pixels; one of c, m, y is 0 in every pixel."
  },
  {
   "property": "C120",
   "status": "partial",
   "theorems": [
    "Verif.Discovery.C120_texts",
    "Verif.Discovery.C120_quiet",
    "Verif.Discovery.C120_cut",
    "Verif.Discovery.C120_length_false",
    "Verif.Discovery.C120_begins",
    "Verif.Discovery.C120_loop",
    "Verif.Discovery.C120_ends",
    "Verif.Discovery.C120_each"
   ],
   "note": "Records with wrong lengths are read without any complaint (C120_length_false); the rest is proved. Without -v."
  },
  {
   "property": "C121",
   "status": "partial",
   "theorems": [
    "Verif.Convert.C121_order",
    "Verif.Convert.C121_declared",
    "Verif.Convert.C121_raster",
    "Verif.Convert.C121_exact",
    "Verif.Convert.C121_done",
    "Verif.Convert.C121_main",
    "Verif.Convert.C121_false",
    "Verif.Convert.C121_main_false",
    "Verif.Convert.C121_silent"
   ],
   "note": "False of PDF and PostScript when the function is left between the pages, for an error of cairo or a block that is not taken (C121_false, C121_main_false); holds of all other runs (C121_exact, C121_raster, C121_done, C121_main), and of every order of declaration with outBts before the surface (C121_order)."
  },
  {
   "property": "C122",
   "status": "partial",
   "theorems": [
    "Verif.Transport.C122_bound",
    "Verif.Transport.C122_returns",
    "Verif.Transport.C122_false",
    "Verif.Transport.C122_compressed_false"
   ],
   "note": "At most two more than the blocks that were written since curl asked, for compressors that take in all or fill the buffer, as zlib does (C122_bound), and none between the requests (C122_returns). False of the code that there is a bound for all documents: blocks that put out nothing are nested, also exactly up to that number (C122_false, C122_compressed_false). The size of a frame is not modelled."
  },
  {
   "property": "C123",
   "status": "partial",
   "theorems": [
    "Verif.Discovery.C123_leads",
    "Verif.Discovery.C123_lines_partial",
    "Verif.Discovery.C123_false"
   ],
   "note": "Whatever arrives, each address given to the callback leads to an IPv4 address (C123_leads). For responses of up to 4096 bytes with no line feed in a path the lines are exactly such addresses of announced printers (C123_lines_partial). False of the code in general: a line feed in the path begins a line of its own, here with the address of a host of which no record tells (C123_false)."
  },
  {
   "property": "C124",
   "status": "partial",
   "theorems": [
    "Verif.Discovery.C124_again_partial",
    "Verif.Discovery.C124_settled",
    "Verif.Discovery.C124_false",
    "Verif.Discovery.C124_grows_false"
   ],
   "note": "For all datagrams: what is known remains as it is, at most one query (for missing addresses) is sent, and all that can be reported the second time are ipp addresses that had been held back for ipps ones (C124_again_partial); from the third time on nothing is (C124_settled). False of the code: the held back address is reported the second time (C124_false), and the list of addresses of a host grows with every copy (C124_grows_false)."
  },
  {
   "property": "C125",
   "status": "partial",
   "theorems": [
    "Verif.Life.Pdf.C125_pdf",
    "Verif.Life.Upload.C125_upload_partial",
    "Verif.Life.Upload.C125_handle",
    "Verif.Life.Upload.C125_zlib",
    "Verif.Life.Upload.C125_job_partial",
    "Verif.Life.Upload.C125_false"
   ],
   "note": "The conversion of PDF gives all objects back, on every way out (C125_pdf). A transfer does exactly if no compression is asked for (C125_upload_partial; for print jobs C125_job_partial); the handle and the headers are given back in any case (C125_handle). False of the code with gzip or deflate: the state of zlib is never released (C125_false, C125_zlib)."
  },
  {
   "property": "C126",
   "status": "partial",
   "theorems": [
    "Verif.Job.C126_pwg",
    "Verif.Job.C126_urf_partial",
    "Verif.Job.C126_false"
   ],
   "note": "PWG raster: each page of an accepted job is written (C126_pwg). URF: exactly if the media type that the job comes to is none or one of those of URF (C126_urf_partial). False of the code otherwise: a media type that the printer has and URF has not is accepted, and then no page can be written (C126_false)."
  },
  {
   "property": "C127",
   "status": "proved",
   "theorems": [
    "Verif.Discovery.C127_numbers",
    "Verif.Discovery.C127_distinct"
   ],
   "note": "For every history of queries (C127_numbers), and for discoveries with any datagrams (C127_distinct)."
  },
  {
   "property": "C128",
   "status": "partial",
   "theorems": [
    "Verif.Discovery.C128_learns_partial",
    "Verif.Discovery.C128_quiet_partial",
    "Verif.Discovery.C128_false",
    "Verif.Discovery.C128_goodbye_false"
   ],
   "note": "For datagrams without records, as plain queries: nothing is sent for them and nothing learnt, and what is reported then was known before (C128_learns_partial); with only such datagrams nothing is reported at all (C128_quiet_partial). False of the code: the flags and the time to live are read and not used, so a probe is taken for an announcement (C128_false), and so are records that are taken back (C128_goodbye_false)."
  },
  {
   "property": "C129",
   "status": "partial",
   "theorems": [
    "Verif.Life.Libraries.C129_pdf",
    "Verif.Life.Libraries.C129_pdf_functions_partial",
    "Verif.Life.Libraries.C129_jpeg_partial",
    "Verif.Life.Libraries.C129_jpeg_exact",
    "Verif.Life.Libraries.C129_false",
    "Verif.Life.Libraries.C129_older_false"
   ],
   "note": "For PDF files, with whatever libraries are there, as far as libraries are concerned (C129_pdf), and if they have the functions that are looked up in them also by function (C129_pdf_functions_partial); for pictures with all functions of libjpeg (C129_jpeg_partial), and exactly for which others (C129_jpeg_exact). False of the code: a missing function is not noticed, and a null pointer is called (C129_false, C129_older_false)."
  },
  {
   "property": "C13",
   "status": "partial",
   "theorems": [
    "Verif.Raster.C13_pnm_pixels_false",
    "Verif.Raster.C13_pnm_last_space_false",
    "Verif.Raster.C13_pnm_pixels_partial"
   ],
   "note": "False of the code when pixel data starts with '#' (taken as comment) or the header ends in a space. Holds otherwise."
  },
  {
   "property": "C130",
   "status": "partial",
   "theorems": [
    "Verif.Discovery.C130_told_partial",
    "Verif.Discovery.C130_quiet_partial",
    "Verif.Discovery.C130_failure",
    "Verif.Discovery.C130_false",
    "Verif.Discovery.C130_sends_false",
    "Verif.Discovery.C130_option"
   ],
   "note": "Failures of socket and of setsockopt are told, whenever they come (C130_told_partial, C130_option), and a system that fails in nothing gives the discovery of C102 (C130_quiet_partial). False of the code for recvfrom, which ends the discovery silently (C130_false; for all datagrams: C130_failure), and for sendto, whose answer is not looked at (C130_sends_false)."
  },
  {
   "property": "C14",
   "status": "partial",
   "theorems": [
    "Verif.C14_page_ranges_false",
    "Verif.C14_page_ranges_partial",
    "Verif.C14_set_page_range_partial",
    "Verif.C14_exact",
    "Verif.C14_set_exact"
   ],
   "note": "False of the code for numbers that do not fit size_t: std::out_of_range is thrown, exactly if such a number comes before anything else that is wrong (C14_exact). Everything else is as claimed, also what setPageRange returns."
  },
  {
   "property": "C15",
   "status": "proved",
   "theorems": [
    "Verif.C15_page_sequence",
    "Verif.C15_page_sequence_of_expression",
    "Verif.C15_page_sequence_any"
   ],
   "note": "Ascending ranges, expressions, and arbitrary range lists."
  },
  {
   "property": "C16",
   "status": "proved",
   "theorems": [
    "Verif.C16_copies"
   ],
   "note": ""
  },
  {
   "property": "C17",
   "status": "partial",
   "theorems": [
    "Verif.C17_paper_size_false",
    "Verif.C17_nearest_false",
    "Verif.C17_paper_size_partial",
    "Verif.C17_exact"
   ],
   "note": "In double precision. False of the code for numbers that do not fit unsigned long (an exception after the name was changed; C17_exact says exactly when) and, in the last bits, for numbers like 1.14. Proved: relative error 2^-50, and exact for short numbers."
  },
  {
   "property": "C18",
   "status": "proved",
   "theorems": [
    "Verif.Raster.C18_row_bytes"
   ],
   "note": ""
  },
  {
   "property": "C19",
   "status": "partial",
   "theorems": [
    "Verif.Text.C19_line_ends_false",
    "Verif.Text.C19_line_ends_exact_partial",
    "Verif.Text.C19_line_ends_partial"
   ],
   "note": "False of the code: CR LF is doubled. Exact description proved; LF-only texts are right."
  },
  {
   "property": "C20",
   "status": "proved",
   "theorems": [
    "Verif.Text.C20_join_split",
    "Verif.Text.C20_split_pieces",
    "Verif.Text.C20_split_join"
   ],
   "note": ""
  },
  {
   "property": "C21",
   "status": "partial",
   "theorems": [
    "Verif.Ipp.C21_message_roundtrip_false",
    "Verif.Ipp.C21_zero_document_false",
    "Verif.Ipp.C21_message_roundtrip_partial"
   ],
   "note": "False of the code when the document data starts with two zero bytes: then no message with operation attributes is read back. Holds for all other document data, up to job groups without attributes."
  },
  {
   "property": "C22",
   "status": "proved",
   "theorems": [
    "Verif.Ipp.C22_attribute_order"
   ],
   "note": "The whole wire image is given."
  },
  {
   "property": "C23",
   "status": "partial",
   "theorems": [
    "Verif.Ipp.C23_decoding_ends",
    "Verif.Ipp.C23_no_ub_false",
    "Verif.Ipp.C23_no_ub_partial",
    "Verif.Ipp.C23_no_members_partial"
   ],
   "note": "Decoding always ends (proved). False of the code for undefined behaviour: a collection that ends within a member makes the decoder read the front of an empty list. Holds for data without such a collection."
  },
  {
   "property": "C24",
   "status": "partial",
   "theorems": [
    "Verif.Ipp.C24_groups_false",
    "Verif.Ipp.C24_repeated_group_false",
    "Verif.Ipp.C24_groups_partial",
    "Verif.Ipp.C24_groups_unterminated_partial",
    "Verif.Ipp.C24_groups_exact"
   ],
   "note": "False of the code: earlier operation/printer groups are lost when repeated, without end tag the last group is lost, and a document that starts with two zero bytes makes the decoder refuse the message. Exact description for all group sequences and documents."
  },
  {
   "property": "C25",
   "status": "proved",
   "theorems": [
    "Verif.Ipp.C25_request_ids"
   ],
   "note": ""
  },
  {
   "property": "C26",
   "status": "partial",
   "theorems": [
    "Verif.Ipp.C26_json_roundtrip_partial",
    "Verif.Ipp.C26_json_group_partial",
    "Verif.Ipp.C26_json_dates_false",
    "Verif.Ipp.C26_json_roundtrip_false",
    "Verif.Ipp.C26_json_exact",
    "Verif.Ipp.C26_json_group_exact"
   ],
   "note": "False of the code for dates (they come back as strings). Exact description for all well-typed attributes: all else comes back as it was, at any nesting."
  },
  {
   "property": "C27",
   "status": "proved",
   "theorems": [
    "Verif.Ipp.C27_independent_settings",
    "Verif.Ipp.C27_collection_removed",
    "Verif.Ipp.C27_job_settings",
    "Verif.Ipp.C27_no_empty",
    "Verif.Ipp.C27_foreign"
   ],
   "note": ""
  },
  {
   "property": "C28",
   "status": "partial",
   "theorems": [
    "Verif.Ipp.C28_restore_partial",
    "Verif.Ipp.C28_restore_attributes_partial",
    "Verif.Ipp.C28_no_uuid",
    "Verif.Ipp.C28_restore_false"
   ],
   "note": "False of the code: restoring replaces the whole media-col collection. Proved for all settings outside of such a collection, and for all that were set."
  },
  {
   "property": "C29",
   "status": "proved",
   "theorems": [
    "Verif.Job.C29_convert_fun",
    "Verif.Job.C29_target_format",
    "Verif.Job.C29_target_exists",
    "Verif.Job.C29_advertised"
   ],
   "note": "Any pipeline list (with user pipelines), any supported list."
  },
  {
   "property": "C30",
   "status": "proved",
   "theorems": [
    "Verif.Job.C30_document_format",
    "Verif.Job.C30_target_convertible"
   ],
   "note": "Any printer attributes, settings, input; also: the target is convertible unless the user chose another one."
  },
  {
   "property": "C31",
   "status": "proved",
   "theorems": [
    "Verif.Job.C31_copies_once",
    "Verif.Job.C31_page_sequence",
    "Verif.Job.C31_collation"
   ],
   "note": "Any printer attributes, number of copies >= 1, job parameters initially for one copy; down to the page sequence."
  },
  {
   "property": "C32",
   "status": "proved",
   "theorems": [
    "Verif.Job.C32_page_ranges_once",
    "Verif.Job.C32_pages_rendered"
   ],
   "note": "Any ranges, printer, input format; down to the pages rendered."
  },
  {
   "property": "C33",
   "status": "partial",
   "theorems": [
    "Verif.Job.C33_resolution_pwg_partial",
    "Verif.Job.C33_resolution_pwg_defined",
    "Verif.Job.C33_resolution_urf_partial",
    "Verif.Job.C33_resolution_pwg_false",
    "Verif.Job.C33_resolution_dpcm_false",
    "Verif.Job.C33_resolution_urf_false"
   ],
   "note": "Nearest listed resolution for PWG and URF (of the first RS entry), to the numbers of the request in any unit; false for far numbers (undefined abs), dots/cm (taken for dpi), further RS entries."
  },
  {
   "property": "C34",
   "status": "proved",
   "theorems": [
    "Verif.Job.C34_back_side_pwg",
    "Verif.Job.C34_back_side_urf",
    "Verif.Job.C34_format"
   ],
   "note": "Any printer attributes, for a job whose back side parameter is initially the normal one."
  },
  {
   "property": "C35",
   "status": "partial",
   "theorems": [
    "Verif.Job.C35_two_sided_false",
    "Verif.Job.C35_two_sided_partial"
   ],
   "note": "False of the code: with unknown page count and local copies a two-sided job becomes one-sided. Proved for known page counts, and for any count when no copies are made locally."
  },
  {
   "property": "C36",
   "status": "partial",
   "theorems": [
    "Verif.Job.C36_compression_false",
    "Verif.Job.C36_compression_partial",
    "Verif.Job.C36_compression_sent_partial"
   ],
   "note": "False of the code: the user's compression is overwritten for raster. Proved exactly what is sent in all cases."
  },
  {
   "property": "C37",
   "status": "partial",
   "theorems": [
    "Verif.Printer.C37_listed_formats_partial",
    "Verif.Printer.C37_not_copied_partial",
    "Verif.Printer.C37_guessed_formats_false",
    "Verif.Printer.C37_octet_stream_false"
   ],
   "note": "Listed formats always work; guessed formats are lost by the copy, octet-stream is never accepted."
  },
  {
   "property": "C38",
   "status": "proved",
   "theorems": [
    "Verif.Transport.C38_sent_prefix",
    "Verif.Transport.C38_all_sent_at_end",
    "Verif.Transport.C38_exclusive",
    "Verif.Transport.C38_regions"
   ],
   "note": "Without compression, for every interleaving, block and buffer size: a prefix at all times, everything when the end is signalled, and no simultaneous access to the shared block. Compressed data: C40."
  },
  {
   "property": "C39",
   "status": "partial",
   "theorems": [
    "Verif.Transport.C39_no_deadlock",
    "Verif.Transport.C39_terminates",
    "Verif.Transport.C39_call_returns",
    "Verif.Transport.C39_end_only_in_await",
    "Verif.Transport.C39_after_end_partial",
    "Verif.Transport.C39_after_end_false"
   ],
   "note": "No deadlock, no endless waiting (for a compressor that meets Spec.Sound), every call can return, end of data only while the writer is in await. False: the first write after the network thread ended may return true; at most one does."
  },
  {
   "property": "C40",
   "status": "partial",
   "theorems": [
    "Verif.Transport.C40_sent",
    "Verif.Transport.C40_compressed_at_end_partial",
    "Verif.Transport.C40_compressed_at_end_false",
    "Verif.Transport.C40_zlib_partial",
    "Verif.Transport.C40_large_false"
   ],
   "note": "Holds when at least one block is written after the compression is set, and with zlib's 32 bit counters when every block is shorter than 4 GiB; false for an empty document and for a block of 4 GiB."
  },
  {
   "property": "C41",
   "status": "proved",
   "theorems": [
    "Verif.Discovery.C41_ends",
    "Verif.Discovery.C41_depth"
   ],
   "note": "All messages, positions, reference graphs; a stack with room for 4097 calls is enough."
  },
  {
   "property": "C42",
   "status": "partial",
   "theorems": [
    "Verif.Discovery.C42_decoder",
    "Verif.Discovery.C42_query_partial",
    "Verif.Discovery.C42_dots_false",
    "Verif.Discovery.C42_long_false"
   ],
   "note": "Queries up to 4096 bytes, labels without dots; both limits are real."
  },
  {
   "property": "C43",
   "status": "proved",
   "theorems": [
    "Verif.Discovery.C43_once",
    "Verif.Discovery.C43_once_meant"
   ],
   "note": "All sequences of datagrams and times, also with ageing as meant."
  },
  {
   "property": "C44",
   "status": "partial",
   "theorems": [
    "Verif.Discovery.C44_partial",
    "Verif.Discovery.C44_false",
    "Verif.Discovery.C44_exact_partial"
   ],
   "note": "Within one datagram; false over several. C44_exact_partial says exactly what each datagram brings, after any others."
  },
  {
   "property": "C45",
   "status": "proved",
   "theorems": [
    "Verif.Tools.C45_sound",
    "Verif.Tools.C45_complete",
    "Verif.Tools.C45_message"
   ],
   "note": "Every argument list, every set of options and positional arguments: accepted exactly when the list splits into uses of options and positional arguments, with the values of the last uses; otherwise an error message."
  },
  {
   "property": "C46",
   "status": "partial",
   "theorems": [
    "Verif.Tools.C46_split_partial",
    "Verif.Tools.C46_false"
   ],
   "note": "Files of less than 2^31 bytes: head and tail are the bytes before and after the place, nothing lost. False for larger files (int sizes)."
  },
  {
   "property": "C47",
   "status": "partial",
   "theorems": [
    "Verif.Tools.C47_recognised",
    "Verif.Tools.C47_exact_partial",
    "Verif.Tools.C47_unknown",
    "Verif.Tools.C47_tiff_false",
    "Verif.Discovery.C47_program"
   ],
   "note": "Every file: recognised by its magic number and unknown only without one; exact for all types except TIFF, whose magic numbers are cut at a zero byte (false, witness)."
  },
  {
   "property": "C48",
   "status": "proved",
   "theorems": [
    "Verif.Pdf.C48_stream",
    "Verif.Pdf.C48_stop",
    "Verif.Pdf.C48_first_failure",
    "Verif.Pdf.C48_refused",
    "Verif.Pdf.C48_pwg_document",
    "Verif.Pdf.C48_urf_document",
    "Verif.Pdf.C48_success",
    "Verif.Pdf.C48_success_pwg",
    "Verif.Pdf.C48_success_urf"
   ],
   "note": "Renderer (poppler, cairo) and write callback are arbitrary. The events of a call are the wanted ones up to the first block that is not taken; read back, the file has one page per element of the page sequence."
  },
  {
   "property": "C49",
   "status": "partial",
   "theorems": [
    "Verif.Pdf.C49_partial",
    "Verif.Pdf.C49_debts_partial",
    "Verif.Pdf.C49_false",
    "Verif.Pdf.C49_bounds_false",
    "Verif.Pdf.C49_code_sums"
   ],
   "note": "Images of up to 38 million lines, any width: no access outside the buffers, no overflow, error terms that are used stay within 112, white stays white, black stays black. False for taller images: two array entries grow with every line (overflow)."
  },
  {
   "property": "C50",
   "status": "partial",
   "theorems": [
    "Verif.Pdf.C50_shape_partial",
    "Verif.Pdf.C50_centred_partial",
    "Verif.Pdf.C50_scale_partial",
    "Verif.Pdf.C50_fits_partial",
    "Verif.Pdf.C50_over_partial",
    "Verif.Pdf.C50_fits_false",
    "Verif.Pdf.C50_shape_false",
    "Verif.Pdf.C50_pixels_false"
   ],
   "note": "In double precision. Equal or dividing resolutions: shape kept, centred within two steps, fits (but for a millionth of the paper) unless rounding to two decimals makes the scale larger, and then by at most 1/399 of the page a side. False otherwise (A4 on A4 at 300 dpi does not fit)."
  },
  {
   "property": "C51",
   "status": "partial",
   "theorems": [
    "Verif.Printer.C51_supplies",
    "Verif.Printer.C51_colors",
    "Verif.Printer.C51_one_per_marker_partial",
    "Verif.Printer.C51_one_per_marker_false",
    "Verif.Client.C51_defined"
   ],
   "note": "Pairing for all lists; one entry per marker only if all lists are there."
  },
  {
   "property": "C52",
   "status": "proved",
   "theorems": [
    "Verif.Printer.C52_two_stage",
    "Verif.Printer.C52_one_stage",
    "Verif.Printer.C52_file",
    "Verif.Printer.C52_document_attributes"
   ],
   "note": "All replies, all converter behaviours."
  },
  {
   "property": "C53",
   "status": "partial",
   "theorems": [
    "Verif.Discovery.C53_apart_partial",
    "Verif.Discovery.C53_discover_partial",
    "Verif.Discovery.C53_asked_partial",
    "Verif.Discovery.C53_throttled",
    "Verif.Discovery.C53_defined_partial",
    "Verif.Discovery.C53_short_partial",
    "Verif.Discovery.C53_asked_false",
    "Verif.Discovery.C53_ageing_false"
   ],
   "note": "All histories: asked again only after two seconds, always after three; defined while nothing is aged out."
  },
  {
   "property": "C54",
   "status": "partial",
   "theorems": [
    "Verif.Ipp.C54_choice",
    "Verif.Ipp.C54_choice_bad_type",
    "Verif.Ipp.C54_integer",
    "Verif.Ipp.C54_integer_choice_partial",
    "Verif.Ipp.C54_integer_choice_false",
    "Verif.Ipp.C54_preferred_false"
   ],
   "note": "False of the code for preferred choices (only the supported list counts) and for integer ranges that end at the largest int (overflow). Proved for all others."
  },
  {
   "property": "C55",
   "status": "partial",
   "theorems": [
    "Verif.Printer.C55_percent_partial",
    "Verif.Printer.C55_percent_false",
    "Verif.Printer.C55_no_highest"
   ],
   "note": "Levels within range; false for levels far above the highest."
  },
  {
   "property": "C56",
   "status": "proved",
   "theorems": [
    "Verif.Printer.C56_firmware",
    "Verif.Printer.C56_warning",
    "Verif.Client.C56_defined"
   ],
   "note": "All attribute sets."
  },
  {
   "property": "C57",
   "status": "proved",
   "theorems": [
    "Verif.Printer.C57_document"
   ],
   "note": "All converters and replies."
  },
  {
   "property": "C58",
   "status": "partial",
   "theorems": [
    "Verif.Printer.C58_failure_reported_partial",
    "Verif.Printer.C58_failed_conversion_false",
    "Verif.Printer.C58_file_false"
   ],
   "note": "Failure is reported for network printers; the document is ended all the same."
  },
  {
   "property": "C59",
   "status": "proved",
   "theorems": [
    "Verif.Discovery.C59_complete"
   ],
   "note": "All sequences of datagrams."
  },
  {
   "property": "C60",
   "status": "partial",
   "theorems": [
    "Verif.Raster.C60_any_encoder_false",
    "Verif.Raster.C60_any_encoder_partial",
    "Verif.Raster.C60_unambiguous"
   ],
   "note": "False of the code for gray URF pages: the fill code gives black. Proved for everything else."
  },
  {
   "property": "C61",
   "status": "partial",
   "theorems": [
    "Verif.Raster.C61_tool_chain_false",
    "Verif.Raster.C61_tool_chain_partial",
    "Verif.Raster.C61_bitmaps_partial",
    "Verif.Raster.C61_deep_false",
    "Verif.Raster.C61_sides_partial"
   ],
   "note": "False of the code for bitmaps (P4 output has a superfluous line; otherwise they come back exactly, C61_bitmaps_partial) and for 16 bits per color (PWG and URF). Proved for 8 bits per color."
  },
  {
   "property": "C62",
   "status": "proved",
   "theorems": [
    "Verif.Pdf.C62_gray",
    "Verif.Pdf.C62_black",
    "Verif.Pdf.C62_color",
    "Verif.Pdf.C62_ends",
    "Verif.Pdf.C62_code_rounds",
    "Verif.Pdf.C62_code_ends",
    "Verif.Pdf.C62_level_false",
    "Verif.Pdf.C62_complement_false"
   ],
   "note": "The rounding of the floating point luminosity is a parameter with a stated bound, which the double precision arithmetic of the code is shown to meet; the _false theorems show that the bound of one is needed (a gray of 128 becomes 127)."
  },
  {
   "property": "C63",
   "status": "partial",
   "theorems": [
    "Verif.Job.C63_quality",
    "Verif.Job.C63_colors_partial",
    "Verif.Job.C63_colors_false",
    "Verif.Job.C63_media_type",
    "Verif.Job.C63_media_source",
    "Verif.Job.C63_sent_as_asked",
    "Verif.Job.C63_any_source_false"
   ],
   "note": "False of the code: bi-level on a color printer gives a color raster, and a media source without a PWG position throws. Everything else proved."
  },
  {
   "property": "C64",
   "status": "partial",
   "theorems": [
    "Verif.Job.C64_paper",
    "Verif.Job.C64_margins",
    "Verif.Job.C64_media",
    "Verif.Job.C64_size_false"
   ],
   "note": "False of the code: the media size is cut off instead of rounded (US Letter is sent one unit too short). Proved: what is sent in all cases, with the size up to 2 units, exactly for whole millimeters."
  },
  {
   "property": "C65",
   "status": "partial",
   "theorems": [
    "Verif.C65_pixels_partial",
    "Verif.C65_pixels_false",
    "Verif.C65_lengths"
   ],
   "note": "False of the code for single sizes (279.4 mm at 360 dpi loses a pixel). Proved: up to a relative error of 2^-48 always, exactly for whole millimeters and short inches."
  },
  {
   "property": "C66",
   "status": "partial",
   "theorems": [
    "Verif.Discovery.C66_secure_partial",
    "Verif.Discovery.C66_plain_partial",
    "Verif.Discovery.C66_sound_partial",
    "Verif.Discovery.C66_long_false"
   ],
   "note": "For responses of up to 4096 bytes; longer ones: C66_long_false. Also when old queries are aged out as meant."
  },
  {
   "property": "C67",
   "status": "partial",
   "theorems": [
    "Verif.Discovery.C67_described_partial",
    "Verif.Discovery.C67_located_partial",
    "Verif.Discovery.C67_queries",
    "Verif.Discovery.C67_long_false"
   ],
   "note": "For responses of up to 4096 bytes; longer ones: C67_long_false. C67_queries for whatever arrives."
  },
  {
   "property": "C68",
   "status": "partial",
   "theorems": [
    "Verif.Printer.C68_set_partial",
    "Verif.Printer.C68_refuses",
    "Verif.Printer.C68_unknown_false",
    "Verif.Printer.C68_trailing_false"
   ],
   "note": "Requests and refusals as claimed for names the printer has and texts without rest; names it does not have are dropped, and a rest after a number is ignored (negations proved)."
  },
  {
   "property": "C69",
   "status": "partial",
   "theorems": [
    "Verif.Printer.C69_cancel_partial",
    "Verif.Printer.C69_network_partial",
    "Verif.Printer.C69_identify_unsupported",
    "Verif.Printer.C69_identify_request",
    "Verif.Printer.C69_refused_false"
   ],
   "note": "Cancelling reports refusals, all report network errors; the other requests report success when refused (negation proved)."
  },
  {
   "property": "C70",
   "status": "partial",
   "theorems": [
    "Verif.Printer.C70_jobs",
    "Verif.Printer.C70_cancel",
    "Verif.Printer.C70_types_false"
   ],
   "note": "Proved for all well-formed replies, with the exact condition for the exception; false of the code in that attributes of other types end getJobs with an exception (negation proved)."
  },
  {
   "property": "C71",
   "status": "partial",
   "theorems": [
    "Verif.Printer.C71_overrides_partial",
    "Verif.Printer.C71_refresh",
    "Verif.Printer.C71_unreachable",
    "Verif.Printer.C71_fake_json",
    "Verif.Printer.C71_fake_message",
    "Verif.Printer.C71_list_false",
    "Verif.Printer.C71_chain_false",
    "Verif.Printer.C71_fake_wrong"
   ],
   "note": "Attributes from replies and files as claimed; overriding when rules are chosen by texts that no rule changes; otherwise false (negations proved). Files that are missing, no JSON or too short are reported (C71_fake_wrong). The JSON parser is a parameter."
  },
  {
   "property": "C72",
   "status": "proved",
   "theorems": [
    "Verif.Printer.C72_guessed",
    "Verif.Printer.C72_job"
   ],
   "note": "For every printer description with texts as formats and device id."
  },
  {
   "property": "C73",
   "status": "partial",
   "theorems": [
    "Verif.Client.C73_print",
    "Verif.Client.C73_rejects",
    "Verif.Client.C73_help",
    "Verif.Client.C73_numbers_false",
    "Verif.Client.C73_words"
   ],
   "note": "Proved for every command line: print takes the last value of each option. Numbers are read with std::stoi and std::stoul, which ignore what follows a number and wrap around; C73_numbers_false has the witness, so that the values are those that the conversion gives."
  },
  {
   "property": "C74",
   "status": "partial",
   "theorems": [
    "Verif.Client.C74_unreachable",
    "Verif.Client.C74_attrs",
    "Verif.Client.C74_cancel_partial",
    "Verif.Client.C74_set_partial",
    "Verif.Client.C74_jobs_partial",
    "Verif.Client.C74_identify_partial",
    "Verif.Client.C74_cancel_exact",
    "Verif.Client.C74_jobs_exact",
    "Verif.Client.C74_identify_exact",
    "Verif.Client.C74_set_exact",
    "Verif.Client.C74_no_attrs",
    "Verif.Client.C74_cancel_number",
    "Verif.Client.C74_wrong_false"
   ],
   "note": "Proved for every command line, printer and reply, also replies that are no messages and attributes of any type (the _exact theorems). False of the code: an id with something after the number is taken for the number (C74_wrong_false), set-attrs, identify and get-jobs end with 0 even if the printer refuses (C69_refused_false), and attributes of unexpected types end cancel-job and get-jobs with an exception. Replies that end within a collection are C23. What info shows is C83."
  },
  {
   "property": "C75",
   "status": "partial",
   "theorems": [
    "Verif.Client.C75_set",
    "Verif.Client.C75_refused",
    "Verif.Client.C75_any",
    "Verif.Client.C75_start",
    "Verif.Client.C75_quality_false",
    "Verif.Client.C75_restored",
    "Verif.Client.C75_foreign"
   ],
   "note": "Proved for all options, saved settings and printers that a job can be made for (C75_any: refused, an exception or a job, and exactly what makes for each; C75_set: the job). Whatever is in the file of saved settings, what is restored meets the hypothesis on collections, or has a media-col that is no collection (C75_restored), and then nothing is sent and print does not end with 0 (C75_foreign). False of the code, in the clause on exceptions: a print-quality other than 3, 4 and 5 in the printer's list ends every print with an exception (C75_quality_false); so do values of wrong types in the lists of resolutions and qualities, or in the list for a value that is asked for, and page ranges with a number of 2^64 or more (C75_any, C75_refused)."
  },
  {
   "property": "C76",
   "status": "partial",
   "theorems": [
    "Verif.Client.C76_sent_partial",
    "Verif.Deliver.C76_file_partial",
    "Verif.Client.C76_always_partial",
    "Verif.Client.C76_to_file"
   ],
   "note": "Proved for every run that ends with 0, whatever is in the file of saved settings: for printers that are reached over the network with C76_always_partial; printers that are files get no request, which is all that is missing from the claim, and C76_to_file has what they get (also C76_file_partial, C89). Settings that the job sees to itself (page ranges, copies, sides, resolution, media, margins) are in C31 to C36, C63 and C64."
  },
  {
   "property": "C77",
   "status": "partial",
   "theorems": [
    "Verif.Client.C77_restored",
    "Verif.Client.C77_next",
    "Verif.Client.C77_only_save",
    "Verif.Client.C77_agrees_partial",
    "Verif.Client.C77_files_partial",
    "Verif.Client.C77_files_next_partial"
   ],
   "note": "Proved for all histories of uses and all printers with settings by uuid (C77_restored, C77_next, C77_only_save); with files, for uuids that are names of files (others: C104). json11 is a parameter: it is asked to read what it wrote for the settings that are saved."
  },
  {
   "property": "C78",
   "status": "partial",
   "theorems": [
    "Verif.Convert.C78_converts_partial",
    "Verif.Convert.C78_rejects",
    "Verif.Convert.C78_help",
    "Verif.Convert.C78_document_partial",
    "Verif.Convert.C78_numbers_false",
    "Verif.Convert.C78_room_false",
    "Verif.Convert.C78_large_false",
    "Verif.Convert.C78_stops",
    "Verif.Convert.C78_unopened",
    "Verif.Convert.C78_success"
   ],
   "note": "Proved for all command lines, with PWG and URF outputs that are documents by the standard and are read back, also up to the page that cairo fails with. False of the code: negative numbers and numbers with a rest are accepted; numbers that are too large end with an exception; the exit code is 0 when nothing could be written."
  },
  {
   "property": "C79",
   "status": "partial",
   "theorems": [
    "Verif.Convert.C79_converts_partial",
    "Verif.Convert.C79_refuses",
    "Verif.Convert.C79_rejects",
    "Verif.Convert.C79_help",
    "Verif.Convert.C79_count_false",
    "Verif.Convert.C79_uncaught_false",
    "Verif.Convert.C79_room_false"
   ],
   "note": "Proved for all command lines and inputs of pictures with anything after them. False of the code: the page count in URF is 0 unless given, different resolutions for URF end with an uncaught exception, a full disk goes unnoticed. Missing: what C13 leaves out, resolutions of 0 (for which the program is undefined, C100_undefined_false)."
  },
  {
   "property": "C80",
   "status": "partial",
   "theorems": [
    "Verif.Jpeg.C80_source",
    "Verif.Jpeg.C80_destination",
    "Verif.Jpeg.C80_picture_partial",
    "Verif.Jpeg.C80_colors_partial",
    "Verif.Jpeg.C80_colors_false",
    "Verif.Jpeg.C80_cut_false",
    "Verif.Jpeg.C80_exit_false"
   ],
   "note": "Proved for every library that keeps to libjpeg's contract (a parameter). False of the code: the Adobe marker is lost, and with it the color space; a cut off file is read beyond its end; a wrong file ends the whole program."
  },
  {
   "property": "C81",
   "status": "partial",
   "theorems": [
    "Verif.Raster.C81_complete",
    "Verif.Raster.C81_cut",
    "Verif.Raster.C81_before",
    "Verif.Raster.C81_appended",
    "Verif.Raster.C81_exit",
    "Verif.Raster.C81_names",
    "Verif.Raster.C81_tool_chain",
    "Verif.Raster.C81_count_false"
   ],
   "note": "Proved for all files, cuts and continuations. False of the code: exit code 0 for a URF file with fewer pages than its header announces. Not modelled: files that can not be opened or written."
  },
  {
   "property": "C82",
   "status": "partial",
   "theorems": [
    "Verif.Client.C82_texts",
    "Verif.Client.C82_numbers",
    "Verif.Client.C82_media",
    "Verif.Client.C82_range",
    "Verif.Client.C82_quality",
    "Verif.Client.C82_resolutions_partial",
    "Verif.Client.C82_resolutions_false",
    "Verif.Client.C82_message",
    "Verif.Client.C82_advice",
    "Verif.Client.C82_written",
    "Verif.Client.C82_none",
    "Verif.Client.C82_empty"
   ],
   "note": "Proved for texts without commas, numbers, ranges, qualities and media. False of the code: resolutions are listed without anything between them; what holds is that the text can be taken apart in one way only."
  },
  {
   "property": "C83",
   "status": "partial",
   "theorems": [
    "Verif.Client.C83_info",
    "Verif.Client.C83_shown",
    "Verif.Client.C83_untold_false"
   ],
   "note": "What info comes to is given for all printers: the report exactly when the attributes it looks at have the expected types. False of the code: an attribute of another type, such as the out-of-band value unknown for a number, ends the program with an exception."
  },
  {
   "property": "C84",
   "status": "partial",
   "theorems": [
    "Verif.Client.C84_shown",
    "Verif.Client.C84_end",
    "Verif.Client.C84_number_false",
    "Verif.Client.C84_accepted_false"
   ],
   "note": "What is shown is given for all replies, and when asking for the number changes the end. False of the code: a reply with attributes of the job but without its number shows 0; a number of another type ends with 1 although the document was accepted."
  },
  {
   "property": "C85",
   "status": "partial",
   "theorems": [
    "Verif.Printer.C85_announced",
    "Verif.Printer.C85_named",
    "Verif.Printer.C85_usual_false",
    "Verif.Printer.C85_discovered_partial",
    "Verif.Printer.C85_discovered_false"
   ],
   "note": "Proved for addresses with a port, and for discovered printers except those announced for ipp on port 631. False of the code: an address without a port leads to port 80 or, with ipps, to 443; a printer announced on port 631 is contacted on port 80."
  },
  {
   "property": "C86",
   "status": "partial",
   "theorems": [
    "Verif.Printer.C86_requests_partial",
    "Verif.Printer.C86_document_false"
   ],
   "note": "Proved for all requests without a document. False of the code for documents: doPrint ignores errors of certificates whatever the printer object was told."
  },
  {
   "property": "C87",
   "status": "partial",
   "theorems": [
    "Verif.Pdf.C87_color_partial",
    "Verif.Pdf.C87_gray_partial",
    "Verif.Pdf.C87_negative",
    "Verif.Pdf.C87_false",
    "Verif.Pdf.C87_bitmap_partial",
    "Verif.Pdf.C87_color_sides",
    "Verif.Pdf.C87_gray_sides",
    "Verif.Pdf.C87_bitmap_sides"
   ],
   "note": "Proved for sRGB, CMYK and 8-bit gray, PWG and URF, and for 1-bit pages up to the superfluous line of C61; pages that are turned over (C87_..._sides) are shown as they lie in the file, 1-bit ones that are mirrored left-right with whole bytes per line. False of the code for 8-bit ink (Black8), which is shown as a negative."
  },
  {
   "property": "C88",
   "status": "partial",
   "theorems": [
    "Verif.Pdf.C88_partial",
    "Verif.Pdf.C88_false"
   ],
   "note": "Proved for pixels in which each ink leaves room for the black. False of the code for others: the arithmetic wraps around, and black with a little cyan is shown bright red."
  },
  {
   "property": "C89",
   "status": "partial",
   "theorems": [
    "Verif.Printer.C89_same_partial",
    "Verif.Printer.C89_told",
    "Verif.Printer.C89_format_false",
    "Verif.Printer.C89_incomplete_false",
    "Verif.Printer.C89_made"
   ],
   "note": "Proved for jobs whose conversion succeeds and whose format has a known ending. False of the code otherwise: other formats, which a printer would take, end with an exception, and a failed conversion counts as success, with part of the document in the file."
  },
  {
   "property": "C90",
   "status": "partial",
   "theorems": [
    "Verif.Deliver.C90_pwg",
    "Verif.Deliver.C90_urf",
    "Verif.Deliver.C90_vector",
    "Verif.Deliver.C90_upload",
    "Verif.Deliver.C90_text_partial",
    "Verif.Deliver.C90_text_false",
    "Verif.Deliver.C90_jpeg_partial",
    "Verif.Deliver.C90_unread"
   ],
   "note": "Proved for PWG, URF, PDF, PostScript and other files; for JPEG up to the marker that tells how colors are coded (C80). False of the code for plain text with CR LF line ends, which come out twice (C19)."
  },
  {
   "property": "C91",
   "status": "partial",
   "theorems": [
    "Verif.Deliver.C91_pwg_partial",
    "Verif.Deliver.C91_urf_partial",
    "Verif.Deliver.C91_vector_partial",
    "Verif.Deliver.C91_upload_partial",
    "Verif.Deliver.C91_text_partial",
    "Verif.Deliver.C91_text_false",
    "Verif.Deliver.C91_jpeg_partial",
    "Verif.Deliver.C91_main"
   ],
   "note": "Proved for all printers, and for documents of fewer than 2^31 - 1 pages, also when settings were saved for the printer (C77). JPEG: without the colors (C80). Plain text: false for lines that end in CR LF already (C19), proved with what comes out for these."
  },
  {
   "property": "C92",
   "status": "partial",
   "theorems": [
    "Verif.Printer.C92_success",
    "Verif.Printer.C92_refused",
    "Verif.Printer.C92_unreachable",
    "Verif.Printer.C92_accepted_partial",
    "Verif.Printer.C92_accepted_false"
   ],
   "note": "Success, refusal and unreachable printers: proved. The status 0x00FF, which is success, is reported as a failure (C92_accepted_false); for all other statuses of success C92_accepted_partial."
  },
  {
   "property": "C93",
   "status": "partial",
   "theorems": [
    "Verif.Convert.C93_others",
    "Verif.Convert.C93_ppm2pwg_partial",
    "Verif.Convert.C93_pdf2printable_partial",
    "Verif.Convert.C93_bsplit_partial",
    "Verif.Convert.C93_baselinify_partial",
    "Verif.Convert.C93_pwg2ppm",
    "Verif.Convert.C93_ppm2pwg_false",
    "Verif.Convert.C93_pdf2printable_false",
    "Verif.Convert.C93_baselinify_false",
    "Verif.Convert.C93_unwritable_false",
    "Verif.Convert.C93_unopened",
    "Verif.Convert.C93_words"
   ],
   "note": "No other file changes: proved for all five programs. With separate files, and for bsplit also with one file, the output is the conversion. With one file ppm2pwg, pdf2printable and baselinify destroy it, and bsplit and baselinify end with 0 although the output could not be made (the _false theorems)."
  },
  {
   "property": "C94",
   "status": "partial",
   "theorems": [
    "Verif.Ipp.C94_shows_partial",
    "Verif.Ipp.C94_ends",
    "Verif.Ipp.C94_exit_false",
    "Verif.Ipp.C94_unterminated"
   ],
   "note": "What is shown is given for all messages of well-formed groups, with or without end tag, with dates as the texts they become. False of the code: the exit code is 0 for files that are no message; what C21 and C24 say is lost is not shown. The text form of JSON is a parameter."
  },
  {
   "property": "C95",
   "status": "partial",
   "theorems": [
    "Verif.Tools.C95_message",
    "Verif.Tools.C95_one_message",
    "Verif.Tools.C95_help",
    "Verif.Tools.C95_subcommands",
    "Verif.Tools.C95_culprit_false"
   ],
   "note": "Proved for all declarations and command lines. False of the code: of too many words the first is called unknown, and not the one that is too much (C95_culprit_false)."
  },
  {
   "property": "C96",
   "status": "partial",
   "theorems": [
    "Verif.Discovery.C96_help",
    "Verif.Discovery.C96_unknown",
    "Verif.Discovery.C96_shown_partial",
    "Verif.Discovery.C96_ends_partial",
    "Verif.Discovery.C96_found_partial",
    "Verif.Discovery.C96_long_false",
    "Verif.Discovery.C96_slow_false"
   ],
   "note": "Proved for responses of up to 4096 bytes and runs that are defined, which those of up to two seconds are (C53). False beyond: C96_long_false (a printer that answers in a longer response is not shown), C96_slow_false (an answer after five seconds: undefined behaviour). The socket and the log are not modelled."
  },
  {
   "property": "C97",
   "status": "partial",
   "theorems": [
    "Verif.Deliver.C97_upload_partial",
    "Verif.Deliver.C97_text_partial",
    "Verif.Deliver.C97_jpeg_partial",
    "Verif.Deliver.C97_untyped",
    "Verif.Deliver.C97_pdf_false",
    "Verif.Deliver.C97_false"
   ],
   "note": "Proved for all types but PDF, with the limits of C91. False of the code for PDF: the name is made an absolute path first, so a file called - is looked for, and the standard input is not read."
  },
  {
   "property": "C98",
   "status": "partial",
   "theorems": [
    "Verif.Raster.Ptr.C98_memory_partial",
    "Verif.Raster.Ptr.bmpToPwg_refines",
    "Verif.Raster.Ptr.C98_outside_false",
    "Verif.Raster.Ptr.C98_lost_false"
   ],
   "note": "Proved for all pages with rows of less than 2^31 bytes. False of the code beyond: the distance of two lines is held in an int, so with 2^31 bytes it reads before the bitmap, and with 2^32 bytes it writes the first row for all rows."
  },
  {
   "property": "C99",
   "status": "proved",
   "theorems": [
    "Verif.Raster.C99_pwg",
    "Verif.Raster.C99_urf",
    "Verif.Raster.C99_unambiguous",
    "Verif.Raster.C99_either"
   ],
   "note": "The specification has no reader: an inductive definition of well-formed files and what they show. Also proved: the definition gives a file one meaning only."
  }
 ]
}