claim('C19', 'proved', ['C19_utf8_decoding', 'C19_utf8_convert'], 'every byte string')
claim('C20', 'partial', ['C20_utf8_output_partial', 'C20_uninitialised_output'],
      'reiconv_iconv, reset and the static functions; reiconv_convert can return uninitialised bytes: the witness is a theorem')
claim('C21', 'proved', ['C21_utf8_round_trip'], 'every scalar value and every byte string')
claim('C22', 'partial', ['C22_utf16be_le', 'C22_utf16_partial', 'C22_feff_lost'],
      'UTF-16BE and UTF-16LE completely; UTF-16 loses U+FEFF: the witness is a theorem')
claim('C23', 'partial', ['C23_fixed_units', 'C23_marked_partial', 'C22_feff_lost'],
      'the encodings with fixed byte order completely; those with marks lose U+FEFF')
claim('C24', 'proved', ['C24_byte_order_marks'], 'all four encodings with marks')
claim('C27', 'proved', ['C27_single_byte_inverse', 'C27_single_byte_exact'],
      'all 137 single-byte encodings; the five with irreversible mappings are handled with their IRREVERSIBLE tables')
claim('C28', 'partial', ['C28_single_byte', 'C28_multibyte', 'C28_pairs', 'C28_shift_jisx0213', 'C28_utf8', 'C28_cp1255', 'C28_registered', 'C28_armscii'],
      'every registered target is settled (C28_registered); ARMSCII-8 violates it when encoding: the witness is a theorem')
claim('C29', 'partial', ['C29_single_byte', 'C29_single_byte_convert', 'C29_combining_encoders', 'C29_combining_decoders', 'C29_combining_exact', 'C29_combining_convert', 'C29_combining_violated',
      'C29_multibyte', 'C29_multibyte_encode', 'C29_multibyte_convert', 'C29_pairs', 'C29_pairs_encode', 'C29_pairs_convert', 'C29_gb18030_2005_decode', 'C29_gb18030_2005_encode_partial'],
      'single-byte encodings and the multibyte encodings in mbRows against their complete tables; CP1255, CP1258 and TCVN violate it, the exact set they read is proved')
claim('C30', 'partial', ['C30_round_trip_partial', 'C30_reversible_partial', 'C30_multibyte_partial', 'C30_pairs_partial', 'C30_registered', 'C53_round_trip', 'C30_jisx0213_changed', 'C30_tags_lost', 'C30_discard_lost'],
      'false as stated: tags and discarded characters are lost although the calls succeed; proved for the rest')
claim('C41', 'proved', ['C41_streaming'], 'every modelled encoding')
claim('C42', 'partial', ['C42_multibyte', 'C42_exact', 'C42_pairs', 'C42_shift', 'C42_registered', 'C42_registered_convert', 'C42_cp50221_lost', 'C42_cp50221_witness'], 'every registered target is settled (C42_registered): false for 23 of them, with a witness for each')
claim('C25', 'proved', ['C25_utf7', 'C25_utf7_convert', 'C25_base64', 'C25_surrogate'], 'every string of scalar values; the form is that of RFC 2152')
claim('C43', 'partial', ['C43_registered', 'C43_registered_convert', 'C43_join_violation', 'C43_self_contained_partial', 'C43_concat_partial', 'C43_pairs_concat', 'C43_hz_tilde', 'C43_hz_tilde_concat', 'C43_jp_escape'],
      'every registered target is settled (C43_registered): false for 12 of them, with two clashing texts for each; for the stateful ones of these, true for texts without the control characters of the encoding (C43_self_contained_partial)')
claim('C45', 'partial', ['C45_gb18030', 'C45_gb18030_convert', 'C45_gb18030_2005_partial', 'C45_gb18030_2005_lost', 'C45_gb18030_2005_collision'],
      'GB18030:2022 completely; GB18030:2005 violates it for 24 characters, which are listed and proved')
claim('C44', 'proved', ['C44_homomorphism'], 'every stateless pair')
claim("C46", "proved", ["C46_output_bound", "C46_figures", "C46_registered", "C46_uniform", "C46_reached"], "C46_registered: the bound with its figures for every source and target of the registry; C46_uniform: 12 bytes per byte and 4 are enough for any pair; C46_reached: the figures are attained")
claim('C31', 'proved', ['C31_insensitive', 'C31_canonicalize'], 'every pair of names')
claim('C32', 'partial', ['C32_lookup_partial', 'C33_exact', 'C32_lost', 'C32_extra'],
      'exact for every string except 14 declared names missing from and 2 undeclared names present in the generated hash: both are theorems')
claim('C33', 'partial', ['C33_exact', 'C37_exact', 'C36_exact', 'C33_lookup_partial', 'C33_long', 'C33_high', 'C33_ignore_overflow'],
      'false as stated; C33_exact, C37_exact, C36_exact: for every string, exactly when each of the three functions leaves its buffers, and the answer otherwise')
claim('C34', 'partial', ['C34_codepage_partial', 'C34_out_of_range'],
      'exact in the range of the table; outside it the code reads out of bounds')
claim('C35', 'proved', ['C35_constants'], 'every declared encoding; names lost by the hash are listed in C32_lost')
claim('C36', 'partial', ['C36_open_partial', 'C36_exact', 'C36_target_not_suffix'],
      'the target name is searched for the prefix //IGNORE, so //IGNORED turns the flag on as well')
claim('C37', 'partial', ['C37_names_partial', 'C37_exact', 'C37_codepages_partial', 'C37_indexes'],
      'for names and codepages on which the lookup is memory safe (C33, C34)')
claim('C38', 'partial', ['C38_cpp_convert_partial', 'C38_wrong_exception', 'C38_encoding'],
      'false as stated: unconvertible input throws std::length_error and leaks the descriptor')
claim('C39', 'proved', ['C39_locale', 'C39_charset'], 'every environment and name')
claim('C40', 'partial', ['C40_windows_partial', 'C40_wrong', 'C40_unknown'],
      'exact lists of the code pages for which it fails')
claim('C26', 'partial', ['C26_escapes_decode', 'C26_round_trip_partial', 'C26_not_an_escape_partial', 'C26_backslash_lost', 'C26_letters_beyond_f'],
      'false as stated: backslashes are not escaped and the letters G to Z count as digits; both witnesses are theorems; proved for the rest')
claim('C48', 'proved', ['C48_lines', 'C48_convert_lines', 'C48_read_line'], 'the 16 registered encodings with shift states or held back characters (lineRows)')
claim('C47', 'partial', ['C47_reads', 'C47_convert', 'C47_writes', 'C47_hz_reads', 'C47_hz_partial', 'C47_hz_accepts', 'C47_hz_violation', 'C47_jp2_reads', 'C47_jp2_accepts', 'C47_jp2_partial', 'C47_jp2_writes', 'C47_jp2_violation', 'C47_jp2_kana_violation', 'C47_cp50221_reads', 'C47_cp50221_partial', 'C47_cp50221_accepts', 'C47_cp50221_writes', 'C47_cp50221_quote_violation', 'C47_cp50221_shift_violation', 'C47_convert_more', 'C47_hz_writes', 'C47_hz_tilde_violation'], 'all nine encodings exactly; false for HZ, which accepts bytes from 0x80 and writes a tilde as one byte, for ISO-2022-JP-2, which accepts C1 controls and Kana, and for CP50221, which accepts stray shifts and has U+301E for U+301D: each has a violation theorem')
claim('C49', 'partial', ['C49_exact', 'C49_registered_partial', 'C49_enough_partial', 'C49_same_return_partial', 'C49_same_result_partial', 'C49_pivot_partial', 'C49_depends_on_source'], 'completely for source encodings without byte order marks that hold no characters back; for those that do, one call can fail with E2BIG where the other succeeds: the witness is a theorem. C49_exact: the property holds of a source encoding exactly when it has no byte order marks and holds nothing back, each of the 14 others with a witness text')
claim('C50', 'partial', ['C50_no_leak_partial', 'C50_all_freed_partial', 'C50_no_bad_free_partial', 'C50_out_of_memory'], 'every history, as long as malloc succeeds in reiconv_convert, which does not check it: the witness is a theorem')
claim('C51', 'proved', ['C51_independent', 'C51_registered'], 'every interleaving of calls; a call is one step')

claim('C52', 'proved', ['C42_registered', 'C42_registered_convert'], 'every registered target, with a witness for each exception (changed)')
claim('C53', 'proved', ['C30_registered', 'C53_round_trip'], 'every registered target, with a witness for each exception (rewritten); C53_round_trip is the consequence for the API, for texts without tag characters')
claim('C54', 'proved', ['C28_registered'], 'every registered target, with a witness for each exception (notAsciiTexts)')
claim('C55', 'partial', ['C55_reads', 'C55_accepts', 'C55_partial', 'C55_writes', 'C55_unique', 'C55_convert', 'C55_empty_violation', 'C55_pad_violation', 'C55_surrogate_violation'], 'the texts accepted exactly; all texts of the RFC are read as it says, all output is of the RFC; that nothing else is accepted is false in three ways, each with a violation theorem')
claim('C56', 'partial', ['C56_reads', 'C56_accepts', 'C56_partial', 'C56_convert', 'C56_inner_violation'], 'the texts accepted exactly; all texts of the documents are read; with marks inside a text the claim is false (C56_inner_violation)')
claim('C57', 'proved', ['C57_java_reads', 'C57_c99_reads', 'C57_convert', 'C57_digits', 'C57_cut'], 'the texts accepted exactly, with the digits the converters accept; that letters beyond F count as digits is C26')
claim('C58', 'partial', ['C58_registered', 'C58_utf8', 'C58_round_trip', 'C58_hub', 'C58_hub_enough', 'C58_round_trip_any_partial', 'C58_beyond_violation'], 'exactly which of the 198 sources have only scalar values; false for seven, each with a witness text that comes out as U+FFFD (C58_beyond_violation); the consequences for the API leave out encodings with byte order marks (C56), the hub also those that hold characters back (C49)')
claim('C59', 'partial', ['C59_null_data_partial', 'C59_null_length', 'C59_static_return'], 'a NULL output_data_ptr always fails; a NULL output_length_ptr never does, for every conversion and input (C59_null_length); the return value is 0, not the length (C59_static_return)')
claim('C60', 'proved', ['C60_writes', 'C60_api', 'C60_unique'], 'every source encoding and text; the specification (Lang.order, Tagging.next, Write, Jp2Text) does not use the converter')
claim('C61', 'proved', ['C61_threads', 'C61_progress', 'C61_finished', 'C61_untouched', 'C61_registered', 'C61_overlap', 'C61_shared_descriptor'], 'any number of threads, programs and schedules; the hypothesis Fine (a thread alone has no undefined behaviour) is discharged for registered encodings by C61_registered; C61_overlap and C61_shared_descriptor show that the hypotheses are needed')
claim('C62', 'proved', ['C62_writes', 'C62_api', 'C62_unique', 'C62_exists', 'C62_kr_header'], 'six encodings; C62_kr_header: the designation of ISO-2022-KR is repeated in each line')
claim('C63', 'proved', ['C63_writes', 'C63_api', 'C63_unique', 'C63_exists', 'C63_can', 'C63_redundant', 'C63_mark'], 'every source encoding and text; C63_redundant: the designation of plane 1 is repeated before some pairs')
claim('C64', 'proved', ['C64_writes', 'C64_api', 'C64_unique'], 'every source encoding and text')
claim('C65', 'proved', ['C65_writes', 'C65_api', 'C65_unique', 'C65_exists', 'C65_jisx0212', 'C65_quotes'], 'every source encoding and text; C65_quotes: two characters are written with one code')
claim('C66', 'proved', ['C66_writes', 'C66_each', 'C66_api', 'C66_unique', 'C66_writable', 'C66_discard', 'C66_lossless', 'C66_context', 'C66_jp2'], 'every source encoding and text; all targets but ISO-2022-JP-2, which C60 covers')
claim('C67', 'partial', ['C67_skip_partial', 'C67_api_partial', 'C67_unique', 'C67_text', 'C67_java', 'C67_c99_violation', 'C67_utf7_violation'], 'every source encoding but C99 and UTF-7, for which it is false; in JAVA no input is invalid (C67_java)')
claim('C68', 'proved', ['C68_left', 'C68_eleven', 'C68_never', 'C68_exact'], 'every source encoding, with the exact bound for each')
claim('C69', 'partial', ['C69_registered', 'C69_convert_partial', 'C69_violation'], 'every registered target is settled (C69_registered): false for JAVA, HZ, CP1258 and TCVN; C69_convert_partial leaves out these and the four encodings with byte order marks')
claim('C70', 'proved', ['C70_universal', 'C70_hubs', 'C70_convert', 'C70_by_hub', 'C70_utf16_violation'], 'every registered target, exactly; the way by a hub for sources that hold no characters back, which is needed (C49_depends_on_source)')
claim('C71', 'proved', ['C71_exact', 'C71_convert', 'C71_lossless', 'C71_violation'], 'every pair of source encodings, exactly; C71_convert for pairs without byte order marks that hold no character back, as in C49, C71_lossless for those that hold characters back')
