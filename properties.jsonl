{"id": "C01", "title": "Conversion calls are memory safe and never abort", "statement": "A conversion call reiconv_iconv(cd,&in,&inleft,&out,&outleft) never reads outside the inleft input bytes, never writes outside the outleft output bytes, never calls abort() and always returns.", "quantifier": "every pair of encodings, either flag, every descriptor state reachable from open, every input byte string, every output size", "why_tests_cant": "the set of byte strings, states and buffer sizes is infinite; a sanitizer only sees the strings it is given", "anchors": ["lib/loop_unicode.h:unicode_loop_convert", "lib/converters/*.h:*_mbtowc,*_wctomb"]}
{"id": "C02", "title": "Exact accounting of consumed input and produced output", "statement": "After a conversion call the unread input is a suffix of the given input and inbytesleft is its length; the bytes between the old and new output pointer are exactly the bytes produced and outbytesleft shrinks by their number; no byte of the output buffer beyond the remaining area is touched.", "quantifier": "every pair of encodings, state, input, buffer and flag", "why_tests_cant": "must hold after every call on every error path", "anchors": ["lib/loop_unicode.h:unicode_loop_convert", "lib/iconv.c:reiconv_iconv"]}
{"id": "C03", "title": "Flushing is memory safe", "statement": "reiconv_iconv(cd,NULL,NULL,&out,&outleft) never writes outside the outleft bytes at out and never aborts, and reports E2BIG when the pending bytes do not fit.", "quantifier": "every pair of encodings, every reachable state, every outleft including 0", "why_tests_cant": "needs the exact combination of a pending character and a full buffer", "anchors": ["lib/loop_unicode.h:unicode_loop_reset"]}
{"id": "C04", "title": "Return value and errno contract of a conversion call", "statement": "A conversion call either returns a count and has consumed the whole input, or returns (size_t)-1 with errno exactly one of E2BIG (the next character does not fit in what is left of the output), EINVAL (the input left over is the beginning of a sequence) or EILSEQ (the input left over starts with an invalid or unencodable character).", "quantifier": "every pair of encodings, state, input, buffer and flag", "why_tests_cant": "universal over inputs and states", "anchors": ["lib/loop_unicode.h:unicode_loop_convert"]}
{"id": "C05", "title": "E2BIG can always be resumed: output chunking is invisible", "statement": "Calling again after E2BIG with the left over input and fresh space continues the conversion; the concatenation of the pieces, and the final error, are the ones a single call with enough space gives.", "quantifier": "every sequence of output buffer sizes, every input, state and pair of encodings", "why_tests_cant": "there are unboundedly many ways to cut the output", "anchors": ["lib/loop_unicode.h:unicode_loop_convert"]}
{"id": "C06", "title": "Input chunking is invisible", "statement": "Feeding an input in pieces, each time prepending the bytes the previous call left unconsumed with EINVAL, gives the same output and the same final state as feeding it in one call.", "quantifier": "every split of every input, state and pair of encodings", "why_tests_cant": "there are unboundedly many ways to cut the input", "anchors": ["lib/loop_unicode.h:unicode_loop_convert", "lib/converters/*.h:*_mbtowc"]}
{"id": "C07", "title": "A large enough buffer always makes progress", "statement": "With at least 64 free bytes, a call that returns E2BIG has produced at least one byte, so loops that retry with a fresh buffer (as reiconv_result_size does) terminate.", "quantifier": "every pair of encodings, state, input", "why_tests_cant": "termination for all inputs", "anchors": ["lib/iconv.c:reiconv_result_size", "lib/loop_unicode.h"]}
{"id": "C08", "title": "reiconv_result_size is exact", "statement": "If reiconv_result_size returns n for an input, then on the descriptor it leaves behind reiconv_convert_static_size of the same input into a buffer of exactly n bytes returns 0 and writes exactly n bytes; with fewer than n bytes it returns -1.", "quantifier": "every pair of encodings, every input, starting from a fresh descriptor", "why_tests_cant": "both passes must agree for every input and output size", "anchors": ["lib/iconv.c:reiconv_result_size", "lib/iconv.c:reiconv_convert_static_size"]}
{"id": "C09", "title": "reiconv_convert returns the whole conversion", "statement": "On a fresh descriptor reiconv_convert either returns -1, or returns 0 with a buffer whose length and contents are exactly the conversion of the whole input followed by the flush bytes.", "quantifier": "every pair of encodings, flag and input", "why_tests_cant": "universal over inputs", "anchors": ["lib/iconv.c:reiconv_convert"]}
{"id": "C10", "title": "reiconv_convert_static_size leaves the rest of a larger buffer untouched", "statement": "If the output buffer is larger than the result, the bytes after the result are unchanged (docs/c-api.md).", "quantifier": "every input, state, encodings, buffer contents", "why_tests_cant": "needs every code path that writes before it fails", "anchors": ["lib/iconv.c:reiconv_convert_static_size", "docs/c-api.md"]}
{"id": "C11", "title": "A too small static buffer is reported", "statement": "If output_length is smaller than the result, reiconv_convert_static_size returns -1 (docs/c-api.md) and writes nothing outside the buffer.", "quantifier": "every input, encodings and every output_length below the result size", "why_tests_cant": "universal over sizes", "anchors": ["lib/iconv.c:reiconv_convert_static_size"]}
{"id": "C12", "title": "Strict mode never lets invalid input through", "statement": "Without the discard flag a successful reiconv_convert means that the whole input decomposed into valid sequences of the source encoding; an input with an invalid or truncated sequence makes it return -1.", "quantifier": "every input and pair of encodings", "why_tests_cant": "universal over invalid inputs", "anchors": ["lib/loop_unicode.h", "lib/iconv.c:reiconv_result_size"]}
{"id": "C13", "title": "Discard mode never reports EILSEQ", "statement": "With REICONV_DISCARD_ILSEQ a conversion or flush call never fails with EILSEQ, and reiconv_convert only fails if the input ends inside a sequence.", "quantifier": "every input, state and pair of encodings", "why_tests_cant": "universal over inputs", "anchors": ["lib/loop_unicode.h"]}
{"id": "C14", "title": "Discard mode only removes: it agrees with strict mode on valid input", "statement": "If a conversion succeeds in strict mode without replacing a character, the same conversion with REICONV_DISCARD_ILSEQ gives the same bytes and count.", "quantifier": "every input, state and pair of encodings", "why_tests_cant": "relates two runs on every input", "anchors": ["lib/loop_unicode.h"]}
{"id": "C15", "title": "The return value counts the irreversible conversions", "statement": "A conversion call that returns 0 encoded every character read exactly (apart from U+E0000..U+E007F which are dropped silently when not representable); otherwise the value is the number of characters that were replaced by U+FFFD (strict) or dropped (discard).", "quantifier": "every input, state and pair of encodings", "why_tests_cant": "universal over inputs", "anchors": ["lib/loop_unicode.h"]}
{"id": "C16", "title": "A reset descriptor behaves like a new one", "statement": "After reiconv_iconv(cd,NULL,NULL,NULL,NULL) all later calls on cd give the results they would give on a newly opened descriptor with the same arguments.", "quantifier": "every history of calls before the reset and every call sequence after it", "why_tests_cant": "quantifies over histories", "anchors": ["lib/loop_unicode.h:unicode_loop_reset", "tests/test-bom-state.cpp"]}
{"id": "C17", "title": "A successful whole-buffer conversion leaves no trace", "statement": "After reiconv_convert returns, the next reiconv_convert on the same descriptor gives the result a newly opened descriptor would give.", "quantifier": "every history of reiconv_convert calls, successful or failed", "why_tests_cant": "quantifies over histories", "anchors": ["lib/iconv.c:reiconv_convert", "lib/iconv.c:reiconv_result_size"]}
{"id": "C18", "title": "Truncated input is reported by the one-shot functions", "statement": "If the input ends inside a multibyte sequence, reiconv_result_size, reiconv_convert and reiconv_convert_static_size return an error.", "quantifier": "every truncated input and pair of encodings", "why_tests_cant": "universal over inputs", "anchors": ["lib/iconv.c:reiconv_result_size", "lib/iconv.c:reiconv_convert_static_size"]}
{"id": "C19", "title": "UTF-8 decoding accepts exactly well-formed UTF-8", "statement": "A byte string is converted from UTF-8 without error iff it is a concatenation of well-formed sequences as in the Unicode standard (no overlong forms, no surrogates, nothing above U+10FFFF), and the characters are the ones the standard assigns.", "quantifier": "every byte string", "why_tests_cant": "2^8n strings of each length n", "anchors": ["lib/converters/utf8.h:utf8_mbtowc"]}
{"id": "C20", "title": "UTF-8 output is always well formed", "statement": "Whatever the source encoding, input, flags and buffer sizes, the bytes a conversion to UTF-8 produces are a concatenation of well-formed UTF-8 sequences.", "quantifier": "every source encoding, input, state, buffer size", "why_tests_cant": "security property over all inputs", "anchors": ["lib/converters/utf8.h:utf8_wctomb", "lib/loop_unicode.h"]}
{"id": "C21", "title": "UTF-8 round trip", "statement": "Encoding any Unicode scalar value in UTF-8 and decoding it gives it back, decoding any valid sequence and encoding the result gives the sequence back; surrogates and values above U+10FFFF are not encoded.", "quantifier": "every scalar value, every valid sequence", "why_tests_cant": "the round trip must hold for all 1112064 scalar values and, in the other direction, for every valid sequence of up to four bytes; a boundary off by one breaks it for one value a sample does not contain", "anchors": ["lib/converters/utf8.h"]}
{"id": "C22", "title": "UTF-16 / UTF-16BE / UTF-16LE round trip and surrogate safety", "statement": "For every scalar value the encoder output (surrogate pairs above U+FFFF, one BOM at the start for UTF-16) decodes to it; decoders never yield a surrogate or a value above U+10FFFF and reject unpaired surrogates.", "quantifier": "every scalar value, every byte string, state", "why_tests_cant": "the byte order mark is written or skipped depending on the state, and surrogates may be split over calls; every byte string in every state must be considered", "anchors": ["lib/converters/utf16.h", "lib/converters/utf16be.h", "lib/converters/utf16le.h"]}
{"id": "C23", "title": "UTF-32, UCS-4 and UCS-2 families round trip", "statement": "For every character an encoder of the family accepts, its output decodes back to it with the right byte order, and every decoded character is in the range of the encoding.", "quantifier": "every code point, every state", "why_tests_cant": "the values range over 32 bits and the byte order over states; a sample of values in one order does not settle the others", "anchors": ["lib/converters/utf32.h", "lib/converters/ucs4.h", "lib/converters/ucs2.h", "lib/converters/ucs2internal.h", "lib/converters/ucs4swapped.h"]}
{"id": "C24", "title": "Byte order marks select the byte order", "statement": "For UTF-16, UTF-32, UCS-2 and UCS-4 input, a leading BOM is not converted and selects the byte order of the following text; without one, big endian is assumed; the choice survives splitting the text over several calls and resets.", "quantifier": "every text, both orders, every chunking", "why_tests_cant": "the order chosen must survive every way of cutting the text into calls, and the number of ways is unbounded", "anchors": ["lib/converters/utf16.h:utf16_mbtowc", "tests/test-bom-state.cpp"]}
{"id": "C25", "title": "UTF-7 round trip", "statement": "Converting any string of scalar values to UTF-7 (with the final flush) and back gives the string, and UTF-7 output is pure ASCII.", "quantifier": "every string of scalar values", "why_tests_cant": "the encoder state machine spans characters", "anchors": ["lib/converters/utf7.h"]}
{"id": "C26", "title": "C99 and JAVA escapes round trip", "statement": "Text written with \\u escapes decodes to the characters it came from, and escapes are only recognised for hexadecimal digits.", "quantifier": "every string", "why_tests_cant": "an escape may be cut, followed by anything, or stand for a surrogate whose other half is anything; strings are unbounded", "anchors": ["lib/converters/c99.h", "lib/converters/java.h"]}
{"id": "C27", "title": "Single byte encodings: encoding is inverse to decoding", "statement": "For every single byte encoding: if a character is encoded as byte b then b decodes to a character that encodes to b; and, for every byte b that decodes to a character w and is not listed as irreversible, w encodes to b; if w encodes to b then b decodes to w or w is one of the documented irreversible extras.", "quantifier": "every byte and every 32 bit character value, all single byte encodings", "why_tests_cant": "2^32 character values times 140 encodings", "anchors": ["lib/converters/*.h", "tests/data/*.TXT"]}
{"id": "C28", "title": "ASCII transparency", "statement": "In every encoding advertised as an ASCII superset, bytes 0x00-0x7F decode to the same code points and these code points encode to the same single byte, in every state reachable at a character boundary.", "quantifier": "all such encodings, all states", "why_tests_cant": "for encodings with shift states the meaning of an ASCII byte depends on the unbounded text before it", "anchors": ["lib/converters/*.h"]}
{"id": "C29", "title": "Decoding agrees with the published mapping tables", "statement": "For every encoding with a mapping table in tests/data the decoder maps exactly the listed byte sequences, to the listed code points.", "quantifier": "every byte sequence", "why_tests_cant": "that the listed sequences are mapped can be tested, that no other sequence of any length is accepted cannot", "anchors": ["tests/data/*.TXT", "lib/converters/*.h"]}
{"id": "C30", "title": "A to B and back is the identity", "statement": "If converting a text from encoding A to encoding B succeeds with return value 0 (no replacement), converting the result from B back to A gives the original text, for A and B whose tables are reversible.", "quantifier": "every text and every such pair", "why_tests_cant": "about 39000 pairs of encodings times unboundedly many texts", "anchors": ["lib/iconv.c", "lib/loop_unicode.h"]}
{"id": "C31", "title": "Encoding names are case, hyphen and underscore insensitive", "statement": "Looking up two names that differ only in ASCII case, in hyphens and in underscores gives the same answer, and canonicalisation is idempotent.", "quantifier": "every pair of names", "why_tests_cant": "names are arbitrary strings; the two lookups must agree also on names that are not in the table", "anchors": ["lib/iconv.c:reiconv_name_canonicalize", "lib/iconv.c:reiconv_lookup_from_name"]}
{"id": "C32", "title": "Name lookup is exactly the table of registered names", "statement": "reiconv_lookup_from_name(s) is i iff s is, up to case, hyphens and underscores, one of the names declared for encoding number i, and -1 iff it is none of the declared names.", "quantifier": "every string", "why_tests_cant": "infinitely many strings that are not names", "anchors": ["lib/generated/aliases.h", "lib/encodings.h.snippet", "lib/iconv.c:reiconv_lookup_from_name"]}
{"id": "C33", "title": "Name lookup is memory safe", "statement": "reiconv_lookup_from_name, reiconv_open_from_name and reiconv_open read and write only their own buffers, whatever NUL terminated string they get.", "quantifier": "every string", "why_tests_cant": "overlong and non ASCII names", "anchors": ["lib/iconv.c:reiconv_lookup_from_name", "lib/iconv.c:reiconv_open", "lib/generated/aliases.h:aliases_hash"]}
{"id": "C34", "title": "Codepage lookup", "statement": "reiconv_lookup_from_codepage(n) is i iff n is declared for encoding number i, and -1 for every other int.", "quantifier": "every int", "why_tests_cant": "2^32 values, out of range reads", "anchors": ["lib/iconv.c:reiconv_lookup_from_codepage", "lib/codepage_to_ei.h"]}
{"id": "C35", "title": "Index constants, names and codepages agree", "statement": "For every encoding the public index constant, the lookup of each of its names and the lookup of each of its codepages give the same number, and distinct encodings have distinct numbers.", "quantifier": "every encoding, name, codepage", "why_tests_cant": "the constants, the hash table of names and the table of code pages are generated separately; all entries of all of them must agree, also for input outside of the tables", "anchors": ["lib/generated/indexes.h.shippet", "lib/generated/indexes.hpp.shippet", "lib/encodings.h.snippet"]}
{"id": "C36", "title": "reiconv_open understands //IGNORE", "statement": "reiconv_open(to,from) turns the discard flag on iff one of the names carries the suffix //IGNORE (any case), and opens the encodings named before the first slash.", "quantifier": "every pair of names", "why_tests_cant": "the suffix may stand on either name, in any case, after any number of other suffixes: arbitrary strings", "anchors": ["lib/iconv.c:reiconv_open"]}
{"id": "C37", "title": "Opening fails with EINVAL exactly for unknown names", "statement": "The open functions return (reiconv_t)-1 with EINVAL iff one of the encodings is unknown, and otherwise a descriptor in the initial state for exactly these encodings.", "quantifier": "every pair of names or codepages", "why_tests_cant": "there are infinitely many unknown names and 2^32 code pages; none of them may open", "anchors": ["lib/iconv.c:reiconv_open_from_name", "lib/iconv.c:reiconv_open_from_codepage", "lib/iconv.c:reiconv_open_from_index"]}
{"id": "C38", "title": "The C++ convert reports errors as std::system_error and frees its descriptor", "statement": "cppp::base::reiconv::convert returns the converted string, or throws std::system_error and has closed the descriptor it opened.", "quantifier": "every input and pair of encodings", "why_tests_cant": "the error may come from opening, from sizing, from allocating or from converting, for any input", "anchors": ["lib/reiconv.cpp", "docs/cpp-api.md"]}
{"id": "C39", "title": "Locale charset lookup", "statement": "The locale is taken from the first non-empty of LC_ALL, LC_CTYPE, LANG, and the binary search over the locale table finds the canonical charset of every name in the table and nothing else.", "quantifier": "every environment, every locale name", "why_tests_cant": "environments and locale names are arbitrary strings; a binary search on a table that is not sorted finds most names but not all", "anchors": ["lib/localecharset/lc_utils.h", "lib/localecharset/locale_table.h"]}
{"id": "C40", "title": "Windows code page names can be opened", "statement": "The charset name reported for a Windows code page is known to reiconv_open and denotes the encoding registered for that code page.", "quantifier": "every code page number", "why_tests_cant": "all code page numbers that the system may report, of which a test machine has one", "anchors": ["lib/localecharset/windows_getcp.h", "lib/encodings.h.snippet"]}
{"id": "C41", "title": "Multibyte decoders are streaming decoders", "statement": "For every multibyte encoding, an incomplete sequence is never consumed and never rejected before it is known to be invalid: the decision on a prefix is never revised when more bytes arrive.", "quantifier": "every byte string and every prefix of it", "why_tests_cant": "relates the decision on every prefix of every byte string to the decision on the whole", "anchors": ["lib/converters/*.h:*_mbtowc"]}
{"id": "C42", "title": "CJK encodings round trip", "statement": "For every double or multi byte encoding, encoding a character and decoding the bytes gives the character back (except for characters folded on purpose), and vice versa for every byte sequence not listed as irreversible.", "quantifier": "every 32 bit character and every byte sequence", "why_tests_cant": "2^32 character values and all byte sequences, for each of about forty encodings with tables of tens of thousands of entries", "anchors": ["lib/converters/*.h", "tests/data/*.TXT"]}
{"id": "C43", "title": "Stateful output is self contained", "statement": "The output of a whole-buffer conversion to a stateful encoding ends in the initial shift state, so that outputs can be concatenated and decoded independently.", "quantifier": "every text, every stateful target", "why_tests_cant": "the state at the end depends on the whole text; texts are unbounded", "anchors": ["lib/converters/iso2022_*.h", "lib/converters/hz.h", "lib/converters/utf7.h"]}
{"id": "C44", "title": "Conversion is a homomorphism for stateless encodings", "statement": "For stateless source and target, converting a concatenation of two complete texts gives the concatenation of the conversions.", "quantifier": "every two texts", "why_tests_cant": "every two texts, of any length", "anchors": ["lib/loop_unicode.h"]}
{"id": "C45", "title": "GB18030 encodes all of Unicode", "statement": "Every Unicode scalar value has a GB18030 encoding that decodes back to it, and different scalar values have different encodings.", "quantifier": "all 1112064 scalar values", "why_tests_cant": "all 1112064 scalar values must have distinct encodings, which is a statement about all pairs", "anchors": ["lib/converters/gb18030_2005.h", "lib/converters/gb18030_2022.h"]}
{"id": "C46", "title": "Output size bounds", "statement": "For every source encoding and every target encoding there are a rate and a constant, given in a table, such that a conversion produces at most that many output bytes per input byte, plus the constant; 12 bytes per input byte plus 4 are enough for any two encodings. Callers can size buffers up front.", "quantifier": "every pair of encodings, every input, every sequence of calls", "why_tests_cant": "the worst case depends on the state (escape sequences, marks, held back characters) that a text leads to; all texts of all lengths must be considered, for about 39000 pairs of encodings", "anchors": ["lib/loop_unicode.h:unicode_loop_convert", "lib/iconv.c:reiconv_result_size", "lib/converters/*.h"]}
{"id": "C48", "title": "Lines are converted independently", "statement": "In an encoding with shift states or with held back characters, what is written for a text that contains a line feed or carriage return is what is written for the text up to and including it, followed by what is written for the rest: a caller may convert line by line, and each output line can be read alone.", "quantifier": "every text, every line end in it, every encoding with state, every source encoding", "why_tests_cant": "the state before the line end depends on the whole text before it", "anchors": ["lib/converters/iso2022_kr.h", "lib/converters/iso2022_cn.h", "lib/converters/iso2022_cnext.h", "lib/converters/iso2022_jp.h", "lib/converters/iso2022_jp1.h", "lib/converters/iso2022_jp2.h", "lib/converters/iso2022_jp3.h", "lib/converters/iso2022_jpms.h", "lib/converters/hz.h", "lib/converters/utf7.h", "lib/converters/big5hkscs2008.h", "lib/converters/euc_jisx0213.h", "lib/converters/shift_jisx0213.h"]}
{"id": "C47", "title": "ISO-2022 texts and HZ texts are read as their definitions say", "statement": "For ISO-2022-KR, -CN, -CN-EXT, -JP, -JP-1, -JP-2, -JP-3, CP50221 and HZ, a byte string is accepted exactly if it is a text by the definition of the encoding (designations, SO/SI, single shifts, reset of designations at the end of a line, tilde sequences), and it is then read as the characters that the published character set tables give; what the library writes is such a text of the characters converted.", "quantifier": "every byte string, every text, every order of designations and shifts", "why_tests_cant": "the meaning of a byte depends on all the designations and shifts before it", "anchors": ["lib/converters/iso2022_kr.h", "lib/converters/iso2022_cn.h", "lib/converters/iso2022_cnext.h", "lib/converters/iso2022_jp.h", "lib/converters/iso2022_jp1.h", "lib/converters/iso2022_jp2.h", "lib/converters/iso2022_jp3.h", "lib/converters/iso2022_jpms.h", "lib/converters/hz.h"]}
{"id": "C49", "title": "The result depends on the characters of the text, not on the encoding it came in", "statement": "Two texts that mean the same characters, in two source encodings, are converted to a target encoding with the same result: same return value, same length, same bytes. In particular converting by way of a Unicode encoding and converting directly give the same.", "quantifier": "every text, every two source encodings, every target encoding, every intermediate encoding", "why_tests_cant": "relates two executions on different inputs, for all texts and all triples of encodings", "anchors": ["lib/loop_unicode.h: unicode_loop_convert, unicode_loop_reset", "lib/iconv.c: reiconv_convert"]}
{"id": "C50", "title": "No leak, no double free", "statement": "Whatever calls a program makes, the memory allocated is exactly the descriptors that it opened and did not close and the results of reiconv_convert that it did not free; closing and freeing never hits memory that is not allocated.", "quantifier": "every sequence of calls, on any number of descriptors, every choice of addresses by the allocator", "why_tests_cant": "leaks and double frees depend on the whole history of calls", "anchors": ["lib/iconv.c: reiconv_open_from_index, reiconv_convert, reiconv_iconv_close", "lib/iconv_open1.h, lib/iconv_open2.h"]}
{"id": "C51", "title": "Descriptors do not influence each other", "statement": "The replies to the calls on one descriptor do not depend on which calls on other descriptors happen in between.", "quantifier": "every interleaving of calls on any number of descriptors", "why_tests_cant": "the number of interleavings is unbounded", "anchors": ["lib/iconv.c: reiconv_iconv, reiconv_convert", "lib/converters.h: struct conv_struct"]}
{"id": "C52", "title": "Which encodings read back what they write", "statement": "For every registered encoding except GB18030:2005 as a target, and every text of Unicode scalar values that can be written in it without replacement: reading the bytes gives exactly the same text. This holds for all but 23 encodings, which are listed by number; for each of these there is a text for which it fails.", "quantifier": "every registered encoding and every text of scalar values", "why_tests_cant": "a test can exhibit a failing text but not show that no text fails, in any of the remaining encodings", "anchors": ["lib/converters/*.h", "lib/encodings.h.snippet"]}
{"id": "C53", "title": "Which encodings write back what they read", "statement": "For every registered encoding except GB18030:2005 as a target, and every byte string it accepts as a text: writing the characters that were read gives the same bytes. This holds for all but 36 encodings, which are listed by number; for each of these there is a byte string for which it fails. Hence a text in one of the others, without tag characters, that is converted with return value 0 to an encoding that reads back what it writes (C52) comes back byte for byte.", "quantifier": "every registered encoding and every byte string", "why_tests_cant": "there are infinitely many byte strings for each encoding", "anchors": ["lib/converters/*.h", "lib/encodings.h.snippet"]}
{"id": "C54", "title": "Which encodings are supersets of ASCII", "statement": "For every registered encoding except GB18030:2005 as a target: inserting ASCII text before or after any text inserts the same characters, when reading and when writing. This holds for all but 98 encodings, which are listed by number; for each of these there is an ASCII text for which it fails.", "quantifier": "every registered encoding, every text and every ASCII text", "why_tests_cant": "the state in which the ASCII text is met depends on the text before it", "anchors": ["lib/converters/*.h", "lib/encodings.h.snippet"]}
{"id": "C55", "title": "UTF-7 is read and written as RFC 2152 says", "statement": "Input in UTF-7 that is a text of RFC 2152 is converted to the characters the RFC gives it; input that is not is rejected with EILSEQ; and what is written in UTF-7 for a text of Unicode scalar values is a text of RFC 2152 with these characters. (The second part is false: an unescaped + before a byte outside the base64 alphabet, bits other than zero behind the last unit at the end of the input, and the second half of a surrogate pair alone are accepted.)", "quantifier": "every input, every text, any lengths of base64 runs", "why_tests_cant": "the set of inputs is infinite, and the base64 groups overlap the 16-bit units at three alignments, so that validity depends on the whole run", "anchors": ["lib/converters/utf7.h:utf7_mbtowc", "lib/converters/utf7.h:utf7_wctomb", "lib/converters/utf7.h:utf7_reset"]}
{"id": "C56", "title": "Which texts UTF-16, UTF-32, UCS-2 and UCS-4 read", "statement": "Input in an encoding with byte order marks is a text exactly if it is an optional mark followed by characters in the byte order the mark announces, big endian without a mark; it is then converted to these characters, and all other input is rejected with EILSEQ. (Not so inside a text: a mark there is dropped, and the swapped mark changes the byte order of the rest.)", "quantifier": "every input in the four encodings", "why_tests_cant": "the set of inputs is infinite, the meaning of every unit depends on all marks before it", "anchors": ["lib/converters/utf16.h:utf16_mbtowc", "lib/converters/utf32.h:utf32_mbtowc", "lib/converters/ucs2.h:ucs2_mbtowc", "lib/converters/ucs4.h:ucs4_mbtowc"]}
{"id": "C57", "title": "Which texts C99 and JAVA read", "statement": "Input in C99 or JAVA is read item by item: an escape of four (C99 also eight) digits is the character it denotes, two escapes of a surrogate pair are one character, a backslash that no further input can make an escape is itself, and so is one before half a surrogate pair (JAVA); input that ends inside an escape, bytes from A0 on (C99) and escapes ISO C does not allow (C99) are rejected with EILSEQ.", "quantifier": "every input in C99 and JAVA", "why_tests_cant": "an escape may be cut at any place and followed by anything, and the meaning of a backslash depends on up to eleven bytes after it", "anchors": ["lib/converters/c99.h:c99_mbtowc", "lib/converters/java.h:java_mbtowc"]}
{"id": "C58", "title": "Every text can be converted to UTF-8 without loss", "statement": "If input in a supported encoding is accepted, all its characters are Unicode scalar values, so that converting it to UTF-8 succeeds with exactly their UTF-8 forms; UTF-8 can serve as a hub: going on from there to any encoding gives what the direct conversion gives, and going back gives the input, where a text has only one form. (False for seven encodings, which accept values above U+10FFFF or surrogates: the UCS-4 family, C99 and UTF-7. Their texts come out as U+FFFD.)", "quantifier": "every registered source encoding, every input, every target", "why_tests_cant": "every table entry, range and formula of 198 decoders has to be covered, in every shift state and with every held back character", "anchors": ["lib/loop_unicode.h:unicode_loop_convert", "lib/converters/utf8.h:utf8_wctomb", "lib/converters/*.h:*_mbtowc"]}
{"id": "C59", "title": "Missing places for the results are errors", "statement": "reiconv_convert returns -1 if the place for the buffer or the place for the length is NULL, and reiconv_convert_static_size returns the length of the result, as docs/c-api.md says. (Only the first holds: without a place for the length the conversion succeeds, and reiconv_convert_static_size returns 0.)", "quantifier": "every pair of encodings, every input, every behaviour of the allocator", "why_tests_cant": "the failure has to happen for every input, also for input that is invalid or empty", "anchors": ["lib/iconv.c:reiconv_convert", "lib/iconv.c:reiconv_convert_static_size", "docs/c-api.md", "include/cppp/reiconv.h.in"]}
{"id": "C60", "title": "ISO-2022-JP-2 output is determined by the characters and the language tags", "statement": "A text converted to ISO-2022-JP-2 is written as follows. Each character is written in the first character set that has it, in an order that depends on the current language: ASCII first, then the Japanese sets, then the sets of ISO-8859-1 and ISO-8859-7, then GB 2312, KS C 5601 and JIS X 0201 Kana; KS C 5601 comes directly after ASCII in Korean text and GB 2312 in Chinese text. Language tags (U+E0001 and the tag letters ja, ko or zh) set the language and write nothing; U+E007F ends it; an unknown or unfinished tag leaves no language. A designation is written exactly when the set is not in its register, and the text ends in ASCII. A character in none of the sets makes the conversion fail, or is left out with the discard flag.", "quantifier": "every source encoding, every text, with and without the discard flag", "why_tests_cant": "the state after a tag and the registers depend on the whole text before, and the nine sets overlap in thousands of characters", "anchors": ["lib/converters/iso2022_jp2.h:iso2022_jp2_wctomb", "lib/converters/iso2022_jp2.h:iso2022_jp2_reset"]}
{"id": "C61", "title": "Threads with descriptors of their own do not influence each other", "statement": "Several threads may convert at the same time. If no thread writes memory that another one reads or writes, and no descriptor is used by two threads, then in whatever order the steps of the conversions come, every thread sees the return values, pointers and output bytes that it sees when it runs alone; every call returns after finitely many steps of its own thread; memory that no thread was given for output is not changed. Threads may read the same input.", "quantifier": "every number of threads, every program of each thread (what it calls next may depend on all it has seen), every contents of the memory, every schedule of the steps inside the calls", "why_tests_cant": "races show up in a few of the unboundedly many schedules; tests run a handful of them", "anchors": ["lib/loop_unicode.h:unicode_loop_convert", "lib/loop_unicode.h:unicode_loop_reset", "lib/reiconv_defines.h:struct conv_struct", "lib/iconv.c:reiconv_iconv"]}
{"id": "C62", "title": "What is written in HZ, ISO-2022-JP, JP-1, KR, CN and CN-EXT", "statement": "A text converted to HZ, ISO-2022-JP, ISO-2022-JP-1, ISO-2022-KR, ISO-2022-CN or ISO-2022-CN-EXT has exactly one form. Each character is written in the first character set of a fixed order that has it, with the bytes of the published table. A set is designated exactly when it is not in its register; in KR, CN and CN-EXT the designations are written again after the end of a line. SO and SI are written exactly when the other one of G0 and G1 is in use, ESC N or ESC O before each character of a set in G2 or G3. The text ends in ASCII with SI in effect. A character that no set has makes the conversion fail with EILSEQ; with discard it is left out and counted; tag characters are left out.", "quantifier": "every source encoding, every text, with and without discard", "why_tests_cant": "the bytes of a character depend on all characters before it; the states of the registers and the choice of the set combine over texts of any length", "anchors": ["lib/converters/hz.h:hz_wctomb", "lib/converters/iso2022_jp.h:iso2022_jp_wctomb", "lib/converters/iso2022_jp1.h:iso2022_jp1_wctomb", "lib/converters/iso2022_kr.h:iso2022_kr_wctomb", "lib/converters/iso2022_cn.h:iso2022_cn_wctomb", "lib/converters/iso2022_cnext.h:iso2022_cn_ext_wctomb"]}
{"id": "C63", "title": "What is written in ISO-2022-JP-3", "statement": "A text converted to ISO-2022-JP-3 has exactly one form. Two characters that have a code together in plane 1 of JIS X 0213 are written with that code, also if characters that are left out stand between them. Every other character is written in the first of ASCII, JIS X 0201 Roman, JIS X 0208, JIS X 0213 plane 1, plane 2 and JIS X 0201 Katakana that has it. A set is designated exactly when it is not in G0; before the code of two characters the first of which is in JIS X 0208 plane 1 is always designated. The text ends in ASCII. A character that has no code makes the conversion fail with EILSEQ; with discard it is left out and counted; tag characters are left out.", "quantifier": "every source encoding, every text, with and without discard", "why_tests_cant": "a character is held back until the next one is known, so the bytes depend on the characters before and after; this combines with six designations over texts of any length", "anchors": ["lib/converters/iso2022_jp3.h:iso2022_jp3_wctomb", "lib/converters/iso2022_jp3.h:iso2022_jp3_reset"]}
{"id": "C64", "title": "What is written in UTF-7", "statement": "A text converted to UTF-7 has exactly one form. Letters, digits, '(),-./:? , space, tab, carriage return and line feed are written as they are. Each maximal sequence of other characters is written as one + followed by the base64 of its UTF-16 form padded with zero bits; only a + outside such a sequence is written +-. Behind the base64 a - is written exactly if the text ends there or the next character is a letter, a digit, / or -. Numbers from 0x110000 on, which some encodings have, are replaced by U+FFFD, or left out with discard, and counted.", "quantifier": "every source encoding, every text, with and without discard", "why_tests_cant": "six bits are carried from one character to the next, so the bytes of a character depend on all the characters before it in the sequence; sequences have any length", "anchors": ["lib/converters/utf7.h:utf7_wctomb", "lib/converters/utf7.h:utf7_reset"]}
{"id": "C65", "title": "What is written in CP50221", "statement": "Each character of a text converted to CP50221 is written in the first of these sets that has it: ASCII; the Katakana of JIS X 0201; JIS X 0208 extended by 940 characters of the private use area, the characters of row 13 of CP932 that JIS X 0208 lacks, and U+FFE2, U+FFE4 and U+663B; JIS X 0212 extended by another 940 characters of the private use area and 92 other characters. The codes are those of the published tables, with one exception: U+301E is written with the code of U+301D. An escape sequence is written exactly where the set changes, and ESC ( B at the end unless the text ends in ASCII. A character in none of the sets is an error, or left out and counted with discard; tag characters are left out.", "quantifier": "every source encoding, every text, with and without discard", "why_tests_cant": "the bytes of a character depend on the set that the whole text before it has left designated; the order of the sets matters for the characters that several sets have", "anchors": ["lib/converters/iso2022_jpms.h:iso2022_jpms_wctomb", "lib/converters/iso2022_jpms.h:iso2022_jpms_reset", "lib/converters/cp50221_0208_ext.h:cp50221_0208_ext_wctomb", "lib/converters/cp50221_0212_ext.h:cp50221_0212_ext_wctomb"]}
{"id": "C66", "title": "A lossy conversion writes what a lossless one would write for the text that is left", "statement": "Converting a text is the same as first going through its characters and then converting what is left without loss. A character is kept if the text kept so far can be written with it. Otherwise a tag character U+E0000..U+E007F is left out and not counted; any other character is left out and counted if discarding is on; with discarding off U+FFFD takes its place and is counted if that can be written, and if not the conversion fails with EILSEQ. The number of bytes reported and the bytes written are those of the lossless conversion of the result: dropping a character leaves no trace in shift states, marks or held-back characters. In all target encodings but eight it does not depend on its place in the text whether a character is kept.", "quantifier": "every source encoding, every registered target encoding except ISO-2022-JP-2 (C60), every text, with and without discard", "why_tests_cant": "what is written after a lost character depends on the output state the whole text before it has left", "anchors": ["lib/loop_unicode.h:unicode_loop_convert", "lib/loop_unicode.h:unicode_loop_reset", "lib/iconv.c:reiconv_result_size"]}
{"id": "C67", "title": "With discarding on, invalid input leaves no trace", "statement": "Converting an input that contains invalid sequences, with discarding on, is converting the text that is left when they are removed. From left to right the shortest beginning of the rest that makes a text together with what was kept is kept; if there is none, whatever may follow, one unit of the encoding (1, 2 or 4 bytes) is dropped. If nothing is left over at the end then the bytes that were kept are a text, the bytes written for the input are those written for this text, and as many characters are counted as lost. Otherwise an incomplete sequence is left over, shorter than the longest sequence of the encoding, and the input is an error.", "quantifier": "every source encoding, every target encoding, every input", "why_tests_cant": "an invalid sequence can leave a trace in the shift state, in a mark, in a character held back for composition or in bytes that were looked at in advance; which bytes are dropped depends on everything before", "anchors": ["lib/loop_unicode.h:unicode_loop_convert", "lib/iconv.c:reiconv_result_size", "lib/converters/c99.h:c99_mbtowc", "lib/converters/utf7.h:utf7_mbtowc"]}
{"id": "C68", "title": "An incomplete sequence is short", "statement": "When a conversion call stops with EINVAL because the input ends in an incomplete sequence, fewer bytes are left unread than the longest sequence of the source encoding has: 12 in JAVA, 10 in C99, 6 in UTF-7, 4, 3 or 2 in the other multibyte encodings. So a caller that keeps 11 bytes can always continue, and for single-byte encodings the error never occurs. The bound is attained for every encoding.", "quantifier": "every source encoding, every target encoding, every reachable state of a descriptor, every input and output buffer", "why_tests_cant": "it must hold for every input and every shift state; a converter that waits for a byte too many shows only at the end of some buffers", "anchors": ["lib/loop_unicode.h:unicode_loop_convert", "lib/converters/java.h:java_mbtowc", "lib/converters/c99.h:c99_mbtowc", "lib/converters/utf7.h:utf7_mbtowc"]}
{"id": "C69", "title": "Saving a text in its own encoding keeps its characters", "statement": "When a text is converted from an encoding to the same encoding, the result may have other bytes (a shorter escape, one of several codes of a character), but it is read as the same characters: converted to any third encoding it gives what the original text gives there, and converting it to its own encoding again changes nothing more.", "quantifier": "every encoding that can be written, every text in it, every third encoding", "why_tests_cant": "it must hold for every combination of neighbouring characters in every encoding: what is written for one character may combine with what is written for the next one", "anchors": ["lib/iconv.c:reiconv_convert", "lib/converters/cp1258.h:cp1258_mbtowc", "lib/converters/cp1258.h:cp1258_wctomb", "lib/converters/java.h:java_wctomb", "lib/converters/hz.h:hz_wctomb", "lib/converters/c99.h:c99_mbtowc", "lib/converters/iso2022_jpms.h:iso2022_jpms_wctomb"]}
{"id": "C70", "title": "Which encodings can write every Unicode text", "statement": "Every text of Unicode characters can be written without loss in UTF-8, UTF-16BE, UTF-16LE, UTF-32, UTF-32BE, UTF-32LE, UCS-4 and its four variants, UTF-7, GB18030:2022, C99 and JAVA, and in no other encoding (UTF-16 rejects U+FFFE). In all of these but UTF-32, UCS-4, C99 and JAVA every such text is also read back. Converting a text to one of these eleven and the result to any third encoding gives what the direct conversion gives: the same return value, length and data, also where characters are replaced, dropped or rejected.", "quantifier": "every target encoding, every text of Unicode scalar values; for the way by a hub every source encoding without byte order marks that holds no character back, every hub, every third encoding, both flags", "why_tests_cant": "it ranges over all sequences of 1112064 characters and over all triples of encodings", "anchors": ["lib/iconv.c:reiconv_convert", "lib/converters/utf16.h:utf16_wctomb", "lib/converters/gb18030_2022.h:gb18030_2022_wctomb", "lib/converters/utf7.h:utf7_wctomb", "lib/converters/java.h:java_wctomb", "lib/converters/c99.h:c99_wctomb"]}
{"id": "C71", "title": "Which encodings extend which", "statement": "An encoding extends another one if it reads every text of the other one as the same characters. For any two supported encodings this is so exactly if they are the same, or the smaller one is ASCII and the larger one one of the ASCII compatible encodings, CP1258 or ARMSCII-8, or the pair is one of 47 listed ones (UCS-2 and UTF-16, UTF-32 and UCS-4, GBK and CP936 and GB18030, the editions of BIG5-HKSCS in order, ISO-2022-JP and ISO-2022-JP-1, -2, -3, ISO-2022-CN and -CN-EXT, DEC-KANJI and EUC-JP, TIS-620 and the other Thai encodings, JIS X 0201 and SHIFT_JIS, and so on). A text of the smaller encoding then is converted to any third encoding with the same result when the larger one is named as the source. In particular EUC-CN is not extended by GBK, EUC-KR not by CP949, CP936 not by GB18030, SHIFT_JIS not by CP932.", "quantifier": "every pair of source encodings, every text; for the result of conversions every target encoding and both flags, and pairs of encodings without byte order marks that hold no character back", "why_tests_cant": "it ranges over all texts, of any length, of all pairs of encodings", "anchors": ["lib/iconv.c:reiconv_convert", "lib/converters/cp936.h:cp936_mbtowc", "lib/converters/gb18030_2022.h:gb18030_2022_mbtowc", "lib/converters/big5hkscs2008.h:big5hkscs2008_mbtowc", "lib/converters/iso2022_jp2.h:iso2022_jp2_mbtowc", "lib/converters/dec_kanji.h:dec_kanji_mbtowc", "lib/converters/euc_cn.h:euc_cn_mbtowc"]}
