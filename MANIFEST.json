{"claims": [
{"property": "C01", "status": "partial", "theorems": ["Reiconv.C01_convert_safe_partial", "Reiconv.C01_registered", "Reiconv.C01_gb18030_2005_overflow", "Reiconv.C01_gb18030_2005_exact", "Reiconv.C01_gb18030_2005_calls", "Reiconv.C01_gb18030_2005_enough", "Reiconv.C01_gb18030_2005_convert"], "note": "every pair of registered encodings (197 targets, 198 sources: targets_complete, sources_complete); false for the target GB18030:2005, whose encoder overflows the buffer: the witness is a theorem"},
{"property": "C02", "status": "proved", "theorems": ["Reiconv.C02_accounting"], "note": "for every registered pair of encodings"},
{"property": "C03", "status": "partial", "theorems": ["Reiconv.C03_exact", "Reiconv.C03_flush_safe_partial", "Reiconv.C03_flush_overflow", "Reiconv.C03_flush_overflow_all", "Reiconv.C03_registered_partial", "Reiconv.C03_registered_violation"], "note": "C03_exact: holds for every registered source but CP1255, CP1258, TCVN, EUC-JISX0213, Shift_JISX0213 and ISO-2022-JP-3, and is false for these six"},
{"property": "C04", "status": "proved", "theorems": ["Reiconv.C04_return_contract"], "note": "for every registered pair of encodings"},
{"property": "C05", "status": "proved", "theorems": ["Reiconv.C05_C06_chunking", "Reiconv.C05_C06_prefix", "Reiconv.C05_single_call"], "note": "for every registered pair of encodings"},
{"property": "C06", "status": "proved", "theorems": ["Reiconv.C05_C06_chunking", "Reiconv.C05_C06_prefix"], "note": "for every registered pair of encodings"},
{"property": "C07", "status": "proved", "theorems": ["Reiconv.C07_progress", "Reiconv.C07_retry_terminates"], "note": "for every registered pair of encodings"},
{"property": "C08", "status": "partial", "theorems": ["Reiconv.C08_result_size_partial", "Reiconv.C08_exact", "Reiconv.C08_exact_buffer_too_small", "Reiconv.C08_tag_too_small", "Reiconv.C08_jp2_tag_too_small"], "note": "the full property is false of the code: witnesses are theorems; C08_exact: for every registered target and either setting of the flag, whether the size asked for is enough"},
{"property": "C09", "status": "partial", "theorems": ["Reiconv.C09_exact", "Reiconv.C09_convert_whole_partial", "Reiconv.C09_wrong_text"], "note": "C09_exact: holds for every registered source but UTF-16, UTF-32, UCS-2, UCS-4, and is false for these four"},
{"property": "C10", "status": "partial", "theorems": ["Reiconv.C10_rest_untouched_partial", "Reiconv.C10_exact", "Reiconv.C10_rest_overwritten"], "note": "C10_exact: holds for every registered target but UTF-16 and UTF-7, and is false for these two"},
{"property": "C11", "status": "partial", "theorems": ["Reiconv.C11_exact", "Reiconv.C11_violation", "Reiconv.C11_too_small_partial", "Reiconv.C03_flush_overflow"], "note": "C11_exact: holds for every registered source but the six of C03, and is false for these six"},
{"property": "C12", "status": "proved", "theorems": ["Reiconv.C12_strict_rejects_invalid"], "note": "for every registered pair of encodings"},
{"property": "C13", "status": "partial", "theorems": ["Reiconv.C13_discard_partial", "Reiconv.C13_exact", "Reiconv.C13_whole", "Reiconv.C08_exact_buffer_too_small"], "note": "reiconv_convert can fail with E2BIG: C13_exact says for which registered targets"},
{"property": "C14", "status": "proved", "theorems": ["Reiconv.C14_discard_agrees"], "note": "for every registered pair of encodings"},
{"property": "C15", "status": "proved", "theorems": ["Reiconv.C15_return_counts"], "note": "for every registered pair of encodings"},
{"property": "C16", "status": "partial", "theorems": ["Reiconv.C16_reset_like_new_partial", "Reiconv.C16_exact", "Reiconv.C16_reset_keeps_byte_order"], "note": "C16_exact: holds for every registered source but UTF-16, UTF-32, UCS-2, UCS-4, and is false for these four"},
{"property": "C17", "status": "partial", "theorems": ["Reiconv.C17_no_trace_partial", "Reiconv.C17_sources", "Reiconv.C17_targets", "Reiconv.C17_failed_convert_leaves_state"], "note": "false after a failed call; C17_sources and C17_targets: exactly the registered encodings that keep a state are affected"},
{"property": "C18", "status": "partial", "theorems": ["Reiconv.C18_truncated_partial", "Reiconv.C18_exact", "Reiconv.C18_whole", "Reiconv.C18_static_accepts_truncated"], "note": "false for reiconv_convert_static_size with every registered source that has sequences of several bytes (C18_exact); nothing to reject for the others (C18_whole)"},
{"property": "C19", "status": "proved", "theorems": ["Reiconv.C19_utf8_decoding", "Reiconv.C19_utf8_convert"], "note": "every byte string"},
{"property": "C20", "status": "partial", "theorems": ["Reiconv.C20_utf8_output_partial", "Reiconv.C20_uninitialised_output"], "note": "reiconv_iconv, reset and the static functions; reiconv_convert can return uninitialised bytes: the witness is a theorem"},
{"property": "C21", "status": "proved", "theorems": ["Reiconv.C21_utf8_round_trip"], "note": "every scalar value and every byte string"},
{"property": "C22", "status": "partial", "theorems": ["Reiconv.C22_utf16be_le", "Reiconv.C22_utf16_partial", "Reiconv.C22_feff_lost"], "note": "UTF-16BE and UTF-16LE completely; UTF-16 loses U+FEFF: the witness is a theorem"},
{"property": "C23", "status": "partial", "theorems": ["Reiconv.C23_fixed_units", "Reiconv.C23_marked_partial", "Reiconv.C22_feff_lost"], "note": "the encodings with fixed byte order completely; those with marks lose U+FEFF"},
{"property": "C24", "status": "proved", "theorems": ["Reiconv.C24_byte_order_marks"], "note": "all four encodings with marks"},
{"property": "C25", "status": "proved", "theorems": ["Reiconv.C25_utf7", "Reiconv.C25_utf7_convert", "Reiconv.C25_base64", "Reiconv.C25_surrogate"], "note": "every string of scalar values; the form is that of RFC 2152"},
{"property": "C26", "status": "partial", "theorems": ["Reiconv.C26_escapes_decode", "Reiconv.C26_round_trip_partial", "Reiconv.C26_not_an_escape_partial", "Reiconv.C26_backslash_lost", "Reiconv.C26_letters_beyond_f"], "note": "false as stated: backslashes are not escaped and the letters G to Z count as digits; both witnesses are theorems; proved for the rest"},
{"property": "C27", "status": "proved", "theorems": ["Reiconv.C27_single_byte_inverse", "Reiconv.C27_single_byte_exact"], "note": "all 137 single-byte encodings; the five with irreversible mappings are handled with their IRREVERSIBLE tables"},
{"property": "C28", "status": "partial", "theorems": ["Reiconv.C28_single_byte", "Reiconv.C28_multibyte", "Reiconv.C28_pairs", "Reiconv.C28_shift_jisx0213", "Reiconv.C28_utf8", "Reiconv.C28_cp1255", "Reiconv.C28_registered", "Reiconv.C28_armscii"], "note": "every registered target is settled (C28_registered); ARMSCII-8 violates it when encoding: the witness is a theorem"},
{"property": "C29", "status": "partial", "theorems": ["Reiconv.C29_single_byte", "Reiconv.C29_single_byte_convert", "Reiconv.C29_combining_encoders", "Reiconv.C29_combining_decoders", "Reiconv.C29_combining_exact", "Reiconv.C29_combining_convert", "Reiconv.C29_combining_violated", "Reiconv.C29_multibyte", "Reiconv.C29_multibyte_encode", "Reiconv.C29_multibyte_convert", "Reiconv.C29_pairs", "Reiconv.C29_pairs_encode", "Reiconv.C29_pairs_convert", "Reiconv.C29_gb18030_2005_decode", "Reiconv.C29_gb18030_2005_encode_partial"], "note": "single-byte encodings and the multibyte encodings in mbRows against their complete tables; CP1255, CP1258 and TCVN violate it, the exact set they read is proved"},
{"property": "C30", "status": "partial", "theorems": ["Reiconv.C30_round_trip_partial", "Reiconv.C30_reversible_partial", "Reiconv.C30_multibyte_partial", "Reiconv.C30_pairs_partial", "Reiconv.C30_registered", "Reiconv.C53_round_trip", "Reiconv.C30_jisx0213_changed", "Reiconv.C30_tags_lost", "Reiconv.C30_discard_lost"], "note": "false as stated: tags and discarded characters are lost although the calls succeed; proved for the rest"},
{"property": "C31", "status": "proved", "theorems": ["Reiconv.C31_insensitive", "Reiconv.C31_canonicalize"], "note": "every pair of names"},
{"property": "C32", "status": "partial", "theorems": ["Reiconv.C32_lookup_partial", "Reiconv.C33_exact", "Reiconv.C32_lost", "Reiconv.C32_extra"], "note": "exact for every string except 14 declared names missing from and 2 undeclared names present in the generated hash: both are theorems"},
{"property": "C33", "status": "partial", "theorems": ["Reiconv.C33_exact", "Reiconv.C37_exact", "Reiconv.C36_exact", "Reiconv.C33_lookup_partial", "Reiconv.C33_long", "Reiconv.C33_high", "Reiconv.C33_ignore_overflow"], "note": "false as stated; C33_exact, C37_exact, C36_exact: for every string, exactly when each of the three functions leaves its buffers, and the answer otherwise"},
{"property": "C34", "status": "partial", "theorems": ["Reiconv.C34_codepage_partial", "Reiconv.C34_out_of_range"], "note": "exact in the range of the table; outside it the code reads out of bounds"},
{"property": "C35", "status": "proved", "theorems": ["Reiconv.C35_constants"], "note": "every declared encoding; names lost by the hash are listed in C32_lost"},
{"property": "C36", "status": "partial", "theorems": ["Reiconv.C36_open_partial", "Reiconv.C36_exact", "Reiconv.C36_target_not_suffix"], "note": "the target name is searched for the prefix //IGNORE, so //IGNORED turns the flag on as well"},
{"property": "C37", "status": "partial", "theorems": ["Reiconv.C37_names_partial", "Reiconv.C37_exact", "Reiconv.C37_codepages_partial", "Reiconv.C37_indexes"], "note": "for names and codepages on which the lookup is memory safe (C33, C34)"},
{"property": "C38", "status": "partial", "theorems": ["Reiconv.C38_cpp_convert_partial", "Reiconv.C38_wrong_exception", "Reiconv.C38_encoding"], "note": "false as stated: unconvertible input throws std::length_error and leaks the descriptor"},
{"property": "C39", "status": "proved", "theorems": ["Reiconv.C39_locale", "Reiconv.C39_charset"], "note": "every environment and name"},
{"property": "C40", "status": "partial", "theorems": ["Reiconv.C40_windows_partial", "Reiconv.C40_wrong", "Reiconv.C40_unknown"], "note": "exact lists of the code pages for which it fails"},
{"property": "C41", "status": "proved", "theorems": ["Reiconv.C41_streaming"], "note": "every modelled encoding"},
{"property": "C42", "status": "partial", "theorems": ["Reiconv.C42_multibyte", "Reiconv.C42_exact", "Reiconv.C42_pairs", "Reiconv.C42_shift", "Reiconv.C42_registered", "Reiconv.C42_registered_convert", "Reiconv.C42_cp50221_lost", "Reiconv.C42_cp50221_witness"], "note": "every registered target is settled (C42_registered): false for 23 of them, with a witness for each"},
{"property": "C43", "status": "partial", "theorems": ["Reiconv.C43_registered", "Reiconv.C43_registered_convert", "Reiconv.C43_join_violation", "Reiconv.C43_self_contained_partial", "Reiconv.C43_concat_partial", "Reiconv.C43_pairs_concat", "Reiconv.C43_hz_tilde", "Reiconv.C43_hz_tilde_concat", "Reiconv.C43_jp_escape"], "note": "every registered target is settled (C43_registered): false for 12 of them, with two clashing texts for each; for the stateful ones of these, true for texts without the control characters of the encoding (C43_self_contained_partial)"},
{"property": "C44", "status": "proved", "theorems": ["Reiconv.C44_homomorphism"], "note": "every stateless pair"},
{"property": "C45", "status": "partial", "theorems": ["Reiconv.C45_gb18030", "Reiconv.C45_gb18030_convert", "Reiconv.C45_gb18030_2005_partial", "Reiconv.C45_gb18030_2005_lost", "Reiconv.C45_gb18030_2005_collision"], "note": "GB18030:2022 completely; GB18030:2005 violates it for 24 characters, which are listed and proved"},
{"property": "C46", "status": "proved", "theorems": ["Reiconv.C46_output_bound", "Reiconv.C46_figures", "Reiconv.C46_registered", "Reiconv.C46_uniform", "Reiconv.C46_reached"], "note": "C46_registered: the bound with its figures for every source and target of the registry; C46_uniform: 12 bytes per byte and 4 are enough for any pair; C46_reached: the figures are attained"},
{"property": "C48", "status": "proved", "theorems": ["Reiconv.C48_lines", "Reiconv.C48_convert_lines", "Reiconv.C48_read_line"], "note": "the 16 registered encodings with shift states or held back characters (lineRows)"},
{"property": "C47", "status": "partial", "theorems": ["Reiconv.C47_reads", "Reiconv.C47_convert", "Reiconv.C47_writes", "Reiconv.C47_hz_reads", "Reiconv.C47_hz_partial", "Reiconv.C47_hz_accepts", "Reiconv.C47_hz_violation", "Reiconv.C47_jp2_reads", "Reiconv.C47_jp2_accepts", "Reiconv.C47_jp2_partial", "Reiconv.C47_jp2_writes", "Reiconv.C47_jp2_violation", "Reiconv.C47_jp2_kana_violation", "Reiconv.C47_cp50221_reads", "Reiconv.C47_cp50221_partial", "Reiconv.C47_cp50221_accepts", "Reiconv.C47_cp50221_writes", "Reiconv.C47_cp50221_quote_violation", "Reiconv.C47_cp50221_shift_violation", "Reiconv.C47_convert_more", "Reiconv.C47_hz_writes", "Reiconv.C47_hz_tilde_violation"], "note": "all nine encodings exactly; false for HZ, which accepts bytes from 0x80 and writes a tilde as one byte, for ISO-2022-JP-2, which accepts C1 controls and Kana, and for CP50221, which accepts stray shifts and has U+301E for U+301D: each has a violation theorem"},
{"property": "C49", "status": "partial", "theorems": ["Reiconv.C49_exact", "Reiconv.C49_registered_partial", "Reiconv.C49_enough_partial", "Reiconv.C49_same_return_partial", "Reiconv.C49_same_result_partial", "Reiconv.C49_pivot_partial", "Reiconv.C49_depends_on_source"], "note": "completely for source encodings without byte order marks that hold no characters back; for those that do, one call can fail with E2BIG where the other succeeds: the witness is a theorem. C49_exact: the property holds of a source encoding exactly when it has no byte order marks and holds nothing back, each of the 14 others with a witness text"},
{"property": "C50", "status": "partial", "theorems": ["Reiconv.C50_no_leak_partial", "Reiconv.C50_all_freed_partial", "Reiconv.C50_no_bad_free_partial", "Reiconv.C50_out_of_memory"], "note": "every history, as long as malloc succeeds in reiconv_convert, which does not check it: the witness is a theorem"},
{"property": "C51", "status": "proved", "theorems": ["Reiconv.C51_independent", "Reiconv.C51_registered"], "note": "every interleaving of calls; a call is one step"},
{"property": "C52", "status": "proved", "theorems": ["Reiconv.C42_registered", "Reiconv.C42_registered_convert"], "note": "every registered target, with a witness for each exception (changed)"},
{"property": "C53", "status": "proved", "theorems": ["Reiconv.C30_registered", "Reiconv.C53_round_trip"], "note": "every registered target, with a witness for each exception (rewritten); C53_round_trip is the consequence for the API, for texts without tag characters"},
{"property": "C54", "status": "proved", "theorems": ["Reiconv.C28_registered"], "note": "every registered target, with a witness for each exception (notAsciiTexts)"},
{"property": "C55", "status": "partial", "theorems": ["Reiconv.C55_reads", "Reiconv.C55_accepts", "Reiconv.C55_partial", "Reiconv.C55_writes", "Reiconv.C55_unique", "Reiconv.C55_convert", "Reiconv.C55_empty_violation", "Reiconv.C55_pad_violation", "Reiconv.C55_surrogate_violation"], "note": "the texts accepted exactly; all texts of the RFC are read as it says, all output is of the RFC; that nothing else is accepted is false in three ways, each with a violation theorem"},
{"property": "C56", "status": "partial", "theorems": ["Reiconv.C56_reads", "Reiconv.C56_accepts", "Reiconv.C56_partial", "Reiconv.C56_convert", "Reiconv.C56_inner_violation"], "note": "the texts accepted exactly; all texts of the documents are read; with marks inside a text the claim is false (C56_inner_violation)"},
{"property": "C57", "status": "proved", "theorems": ["Reiconv.C57_java_reads", "Reiconv.C57_c99_reads", "Reiconv.C57_convert", "Reiconv.C57_digits", "Reiconv.C57_cut"], "note": "the texts accepted exactly, with the digits the converters accept; that letters beyond F count as digits is C26"},
{"property": "C58", "status": "partial", "theorems": ["Reiconv.C58_registered", "Reiconv.C58_utf8", "Reiconv.C58_round_trip", "Reiconv.C58_hub", "Reiconv.C58_hub_enough", "Reiconv.C58_round_trip_any_partial", "Reiconv.C58_beyond_violation"], "note": "exactly which of the 198 sources have only scalar values; false for seven, each with a witness text that comes out as U+FFFD (C58_beyond_violation); the consequences for the API leave out encodings with byte order marks (C56), the hub also those that hold characters back (C49)"},
{"property": "C59", "status": "partial", "theorems": ["Reiconv.C59_null_data_partial", "Reiconv.C59_null_length", "Reiconv.C59_static_return"], "note": "a NULL output_data_ptr always fails; a NULL output_length_ptr never does, for every conversion and input (C59_null_length); the return value is 0, not the length (C59_static_return)"},
{"property": "C60", "status": "proved", "theorems": ["Reiconv.C60_writes", "Reiconv.C60_api", "Reiconv.C60_unique"], "note": "every source encoding and text; the specification (Lang.order, Tagging.next, Write, Jp2Text) does not use the converter"},
{"property": "C61", "status": "proved", "theorems": ["Reiconv.C61_threads", "Reiconv.C61_progress", "Reiconv.C61_finished", "Reiconv.C61_untouched", "Reiconv.C61_registered", "Reiconv.C61_overlap", "Reiconv.C61_shared_descriptor"], "note": "any number of threads, programs and schedules; the hypothesis Fine (a thread alone has no undefined behaviour) is discharged for registered encodings by C61_registered; C61_overlap and C61_shared_descriptor show that the hypotheses are needed"},
{"property": "C62", "status": "proved", "theorems": ["Reiconv.C62_writes", "Reiconv.C62_api", "Reiconv.C62_unique", "Reiconv.C62_exists", "Reiconv.C62_kr_header"], "note": "six encodings; C62_kr_header: the designation of ISO-2022-KR is repeated in each line"},
{"property": "C63", "status": "proved", "theorems": ["Reiconv.C63_writes", "Reiconv.C63_api", "Reiconv.C63_unique", "Reiconv.C63_exists", "Reiconv.C63_can", "Reiconv.C63_redundant", "Reiconv.C63_mark"], "note": "every source encoding and text; C63_redundant: the designation of plane 1 is repeated before some pairs"},
{"property": "C64", "status": "proved", "theorems": ["Reiconv.C64_writes", "Reiconv.C64_api", "Reiconv.C64_unique"], "note": "every source encoding and text"},
{"property": "C65", "status": "proved", "theorems": ["Reiconv.C65_writes", "Reiconv.C65_api", "Reiconv.C65_unique", "Reiconv.C65_exists", "Reiconv.C65_jisx0212", "Reiconv.C65_quotes"], "note": "every source encoding and text; C65_quotes: two characters are written with one code"},
{"property": "C66", "status": "proved", "theorems": ["Reiconv.C66_writes", "Reiconv.C66_each", "Reiconv.C66_api", "Reiconv.C66_unique", "Reiconv.C66_writable", "Reiconv.C66_discard", "Reiconv.C66_lossless", "Reiconv.C66_context", "Reiconv.C66_jp2"], "note": "every source encoding and text; all targets but ISO-2022-JP-2, which C60 covers"},
{"property": "C67", "status": "partial", "theorems": ["Reiconv.C67_skip_partial", "Reiconv.C67_api_partial", "Reiconv.C67_unique", "Reiconv.C67_text", "Reiconv.C67_java", "Reiconv.C67_c99_violation", "Reiconv.C67_utf7_violation"], "note": "every source encoding but C99 and UTF-7, for which it is false; in JAVA no input is invalid (C67_java)"},
{"property": "C68", "status": "proved", "theorems": ["Reiconv.C68_left", "Reiconv.C68_eleven", "Reiconv.C68_never", "Reiconv.C68_exact"], "note": "every source encoding, with the exact bound for each"},
{"property": "C69", "status": "partial", "theorems": ["Reiconv.C69_registered", "Reiconv.C69_convert_partial", "Reiconv.C69_violation"], "note": "every registered target is settled (C69_registered): false for JAVA, HZ, CP1258 and TCVN; C69_convert_partial leaves out these and the four encodings with byte order marks"},
{"property": "C70", "status": "proved", "theorems": ["Reiconv.C70_universal", "Reiconv.C70_hubs", "Reiconv.C70_convert", "Reiconv.C70_by_hub", "Reiconv.C70_utf16_violation"], "note": "every registered target, exactly; the way by a hub for sources that hold no characters back, which is needed (C49_depends_on_source)"},
{"property": "C71", "status": "proved", "theorems": ["Reiconv.C71_exact", "Reiconv.C71_convert", "Reiconv.C71_lossless", "Reiconv.C71_violation"], "note": "every pair of source encodings, exactly; C71_convert for pairs without byte order marks that hold no character back, as in C49, C71_lossless for those that hold characters back"}
]}
