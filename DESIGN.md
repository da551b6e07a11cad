# Formal model of cppp-reiconv in Lean 4: design

The C/C++ sources in `/repo` are read as text; nothing is built or run. The model lives in
`lean/Verif/`. Every definition carries a comment naming the file and lines it models.

## Shape of the model

* **Outcomes.** Code runs in `Outcome α = ok a | ub | abort | diverge`. `ub` is an out-of-bounds read
  or write (or another C undefined behaviour), `abort` is a call of `abort()`, `diverge` is a loop
  that ran out of its step bound. Theorems must exclude the last three explicitly.
* **Bytes and characters.** Bytes are `UInt8`, buffers are `List UInt8`, `ucs4_t`/`state_t` are `Nat`
  with explicit reduction modulo 2^32 wherever the C operation can wrap.
* **Converters.** A decoder is `mbtowc : IState → bytes → Outcome (MbRet × IState)`, an encoder is
  `wctomb : ostate → wc → n → Outcome WcRes`, where `WcRes` has the return code, *the bytes stored at
  r[0..]* (also those stored before an error return) and the new `ostate`. C return codes
  (`RET_ILSEQ`, `RET_TOOFEW(k)` …) are recovered with `.code`, and the loop decodes them with the
  same macros as the C code.
* **Loop and API.** `unicode_loop_convert`, `unicode_loop_reset`, `reiconv_iconv`,
  `reiconv_result_size`, `reiconv_convert_static_size`, `reiconv_convert`, the `open` functions, name
  canonicalisation, the gperf hash lookup, the codepage table, and the locale helpers are modelled
  function by function. Output buffers are modelled with their contents (`Buf`: bytes already
  passed, memory still ahead), so "the rest of the buffer does not change" can be stated.
* **Tables.** The conversion tables are extracted from the headers by the scripts in `tools/` into
  generated Lean modules (`lean/Verif/Gen*`), committed with the sources.

## How the properties are proved

1. `Spec`: a small specification, independent of the loop: labelled steps of an abstract transducer
   (read one item of the input, append the bytes of its encoding) and its maximal runs.
2. `Contract`: what a decoder (`DecOK`) and an encoder (`EncOK`) must satisfy: in-bounds, progress,
   prefix stability, error returns leave the state alone, result independent of spare room.
3. Generic theorems: for every decoder and encoder satisfying the contract, the loop and the API
   functions refine the specification (C01, C02, C04–C18, C20, C30, C44, C46).
4. Each concrete converter is shown to satisfy the contract, and has its own correctness theorems
   (C19–C29, C41–C43, C45). For table driven converters the C `if`/`else` chain is a list of rules
   interpreted by one function; a checker run by the kernel (`decide +kernel`) over the whole table
   is lifted to all inputs by a soundness lemma proved once.
5. Lookup functions: soundness and completeness of the perfect hash are proved from a kernel check
   over all 840 keywords plus a lemma for all other strings (C31–C37); locale helpers (C39, C40).

Where the code violates a property, the negation is proved with a concrete witness, the strongest
true variant is proved as a `_partial` theorem, and the disagreement is recorded below.

## Per property plan

| id | modelled | proof |
|----|----------|-------|
| C01, C02, C04 | loop over contract codecs | induction on the loop, invariants |
| C03 | reset | case analysis; for a full buffer an invariant that relates the states of both encodings; violated for six sources, `C03_exact` |
| C05, C06 | loop vs `Runs` spec | refinement, determinism of runs |
| C07 | loop | invariant: an error leaves what fits |
| C08, C09, C11, C12, C18 | result_size, static_size, convert | refinement to `Runs` |
| C10 | buffer contents | invariant; violated for encoders that store before ILUNI, `_partial` |
| C13–C15 | loop, both flags | induction on runs, simulation |
| C16, C17 | reset, histories | violated (byte order kept; failed calls leave state), `_partial` |
| C19–C24 | utf8/16/32, ucs2/4 | case analysis + bit arithmetic |
| C25, C26 | utf7, c99, java | state machine simulation |
| C27–C29 | generated tables | kernel-checked checker + soundness lemma |
| C30, C43, C44, C46 | runs | induction on runs |
| C31–C37 | lookup | induction on strings, checked hash table |
| C38 | C++ wrapper | case analysis; violated, `_partial` |
| C39, C40 | locale helpers | binary search invariant, table checks |
| C41, C42, C45 | CJK converters | generated tables, checker + soundness |
| C47 | decoders with shift states vs `Verif/Iso2022.lean`, `Verif/Cp50221.lean` | simulation in both directions |
| C48 | encoders with state | after a line end the state is as at the start |
| C49 | two source encodings, one text | the loop as a function of the characters (`putText`) |
| C50 | heap of descriptors and results (`Verif/World.lean`) | ownership invariant, induction over the history |
| C52, C53, C54 | all registered targets by kind (`Props/Kinds.lean`) | per kind from C27, C28, C29, C42; a computed witness for each exception |
| C55 | the UTF-7 decoder and encoder vs `Verif/Rfc2152.lean` | invariant of the decoder loop on the number read so far; induction over the units; runs of base64 for the encoder |
| C56 | the decoders of UTF-16, UTF-32, UCS-2, UCS-4 vs the grammar `MarkReads` | items read off the bytes, induction over the text |
| C57 | the decoders of C99 and JAVA vs the grammars `JavaItem`, `C99Item` | all ways the digits after a backslash can go on (`scan`), induction over the text |
| C58 | what every decoder program can return (`M.Gives`), the tables of all character sets; UTF-8 | for each kind of encoding the items are scalar values (whole-table checks in the kernel), an invariant for held back characters; then `C49`, `C30_registered` |
| C59 | `convert`, `convertStatic` | case analysis over the two passes |
| C60 | the encoder of ISO-2022-JP-2 | a specification of the writer over the character sets and registers of C47 with language tags (`Props/Tags.lean`); each attempt of the encoder finds the bytes of its set exactly if the set has the character; induction over the text |
| C61 | threads with shared memory, one step per converter function (`Verif/Threads.lean`) | `Props/Threads.lean`: the steps of a call alone compute `iconv` (simulation of the loop); a step keeps to the area of its thread and depends only on it; induction over the schedule |
| C62 | the encoders of HZ, ISO-2022-JP, JP-1, KR, CN, CN-EXT | a writer (order of the sets, register and designation of each, forgetting at the end of a line) over the character sets and registers of C47 (`Props/IsoWrite.lean`); the inverse table of CNS 11643 gives the first plane that has the character, from the checked table of EUC-TW; induction over the text. Finding: in ISO-2022-KR the designation is written in each line and also in the middle of a line, where RFC 1557 asks for it once at the beginning of a line (`C62_kr_header`) |
| C63 | the encoder of ISO-2022-JP-3 | the characters that are kept, then what is written for them from a set in G0 on (`Props/Jp3Write.lean`), over the character sets of C47; every character is classified (written at once, held back, no code) through the checked table of EUC-JISX0213; simultaneous induction over the text for the states with and without a held character. Findings: the designation of plane 1 is repeated before か゚ although plane 1 is in G0 (`C63_redundant`, harmless); U+309A has no code alone (`C63_mark`) |
| C64 | the encoder of UTF-7 | the form as an inductive relation over the alphabet and bit groups of `Rfc2152.lean` (`Props/Utf7Write.lean`): plain characters, `+-`, maximal sequences in base64, the closing `-`; that the encoder writes such a form (induction over the text, by sequences, with the bit invariant of C25), that there is only one (the digits of a number are unique) and that there is one for every text |
| C65 | the encoder of CP50221 | the code of each character in each of the four sets (`Code` in `Props/JpmsWrite.lean`), over the published tables of JIS X 0208, JIS X 0212 and CP932 and the list of C47; the first set that has the character; escape sequences where the set changes. The extension tables are compared with CP932 place by place; induction over the text. Findings: two characters with one code (`C65_quotes`), characters of CP932 that are not written with the codes of Windows (`C65_jisx0212`) |
| C66 | the encoders of all targets and the loop | `Shown` in `Props/Lossy.lean` says which text is left, in terms of `Entry.Encodes` (which texts can be written without loss, and how) alone; `Each` the same character by character. Induction over the text with the encoder state after the text kept so far; every encoder but that of ISO-2022-JP-2 writes something for every tag character it accepts (`targets_plain`), and every encoder but eight accepts a character in all states or in none (`targets_even`). ISO-2022-JP-2 is an exception because of its language tags (`C66_jp2`); C60 is its theorem |
| C67 | all decoders and the loop | `Clean` in `Discard.lean` says which bytes are kept, in terms of `Entry.Text` alone. A decoder is `Local` if what it makes of an item does not depend on what follows it; then reading with skipping delivers the characters of the bytes that are kept (`reads_clean`, induction over the run). `DiscardKinds.lean` proves `Local` for all decoders but three. Findings: C99 and UTF-7 look ahead, and what they have seen behind an invalid byte decides how the bytes before it are read (`C67_c99_violation`, `C67_utf7_violation`). JAVA looks ahead too, but no input is invalid in it (`C67_java`). The left-over end may be a sequence that cannot be completed by any byte |
| C68 | all decoders and the loop | `Short.lean`: the greatest number of bytes a decoder asks for, by recursion over its program; `longest` lists it for every encoding. That the bound is attained is checked for each source with one incomplete sequence (`sources_stop`) |
| C69 | all encoders and decoders | `Props/Keep.lean`: settled for every registered target (`C69_registered`), from C42 and C30 where one of them holds. The other 17 have a proof each: no text read in UTF-16, UTF-32, UCS-2 or UCS-4 has a mark as a character; no text read in an ISO-2022 encoding has a control character, and none in CP50221 a character that is written as another one; C99 escapes are written as escapes; CP1255 takes the longest listed sequence before and after. **Disagreement**: false for JAVA, HZ, CP1258 and TCVN (`C69_violation`) |
| C70 | all encoders | `Props/Hub.lean`: for each of the 15 from the exact description of what it writes (C19, C22, C23, C25, C26, C45); for each of the others one character that it does not have, by evaluation. The hubs are those that also read back what they write (C42), the way by a hub is C49 |
| C71 | all decoders | `Props/Extend.lean`: extension is transitive, and each of the listed pairs follows from the exact description of what the two encodings read (C22, C23, C28, C29, C47, C56): for tables, from an order on the programs of the decoders or from an inclusion of the tables. That there are no others is shown by 41 texts (`Props/ExtendProbe.lean`), evaluated for every encoding; for every other pair one of them is read by the first encoding and not, or differently, by the second one. The conversions are C49 |
| C51 | the same | the replies on one descriptor are those of its own calls, induction over the history |

## Frameworks

* `Codec/Tree.lean`: straight-line C functions of the form "look at byte i, compare, return" are
  programs of type `M` (decoders) and `W` (encoders). `M.run` and `W.run` give them a meaning that
  records out-of-bounds reads and writes; tactics prove the contract for any such program.
* `Codec/Charset.lean`, `Codec/TableCheck.lean`, `Codec/Fast.lean`, `Codec/Unroll.lean`: two-dimensional
  character set tables. `TableOK m w T irr` says that the decoder `m` and the encoder `w` realise exactly
  the published table `T` (from `tests/data/*.TXT`) with the irreversible rows `irr`. It is proved by
  kernel evaluation of a checker over the whole table.
* `Codec/Stateful.lean`, `Codec/Sim.lean`: encodings with shift states (`StDec`, `StEnc`): a decoder is a
  loop over items that are characters or shifts. A simulation (`Sim`) relates the states of the
  encoder and the decoder, so that what is written is read back (C42, C43).
* `Codec/Pair.lean`, `Codec/PairText.lean`: encodings in which one byte sequence stands for two
  characters and the encoder holds a character back (BIG5-HKSCS, EUC-JISX0213, SHIFT_JISX0213).
* `Codec/Comp.lean`, `Codec/CompProofs.lean`: decoders that hold a base character back to combine it
  with an accent (CP1255, CP1258, TCVN).
* `Iso2022.lean`, `Codec/IsoRead.lean`, `Codec/IsoFollow*.lean`: ISO 2022 as registers, designations and
  shifts, with the published tables as character sets, and the proof that the decoders follow it.

## What is modelled

Modelled function by function, with the lines cited at each definition:

* `lib/iconv.c`, `lib/loop_unicode.h`, `lib/reiconv_defines.h`, `lib/generated/*`, `lib/encodings.h.snippet`: the
  conversion loop, the reset loop, the `open` functions, `reiconv_iconv`, `reiconv_result_size`, `reiconv_convert`,
  `reiconv_convert_static_size`, name and code page lookup.
* `lib/reiconv.cpp`, the C++ wrapper (return values, exceptions and the descriptor leak), and
  `lib/locale_charset.c`, `lib/localecharset/*`, the locale helpers.
* the array of registered encodings: `Verif/Registry.lean` lists the model of each of the 198 encoding numbers and
  proves the list complete, so that "every registered pair" in a theorem is every pair.
* every converter header in `lib/converters` that a registered encoding uses, with its tables: the
  Unicode encodings, UTF-7, C99, JAVA, the single-byte encodings, CP1255/CP1258/TCVN, the EUC, Shift_JIS, Big5,
  GBK and GB18030 families, JOHAB, HZ, the ISO-2022 encodings and CP50221.

Not modelled, or modelled with a restriction:

* A language tag for which an encoder writes nothing (ISO-2022-JP-2 keeps it in its state) counts as not
  represented: `Encoder.rep`.
* `gb18030_2005`: its encoder writes past the buffer it is given, so it satisfies no contract; it is modelled, but it has
  no `Entry` as a target. `Verif/Props/Gb2005.lean` proves exactly when a call leaves its buffer, and that every other call
  is one of an encoder that satisfies the contracts (`gb2005_entry`), so that the theorems for all entries apply to it.
* `malloc` failure is an argument of `reiconv_convert` (`alloc n = none`). The allocator is any choice of free addresses
  (`Verif/World.lean`). There a call is one step: C51 covers all interleavings of whole calls.
* Threads (`Verif/Threads.lean`): the memory is shared; a step is one call of a function of a converter inside
  `unicode_loop_convert`, and the steps of the threads come in any order. One such function (it reads the input and writes
  the output and the descriptor) and `unicode_loop_reset` are one step each. The memory model is sequentially consistent;
  as no thread writes what another one uses, there are no data races and weaker models of C give the same. Threads call
  `reiconv_iconv`; the three functions built on it use only their arguments and the stack besides. The library keeps no
  mutable data outside descriptors. `errno` is part of the return value (one per thread).
* `size_t` is `Nat`: buffers whose length exceeds the address space do not exist.
* `reiconv_result_size` with a NULL `start` and a non-zero length passes NULL to the conversion again and again; inputs
  here are byte strings, so this call is outside the model.
* `cns11643_inv_wctomb` checks for 2 bytes and stores 3; all its callers pass a buffer of 3, so it is modelled as they use it.
* The Windows API functions called by the locale helpers are not modelled, only the tables and the search.

## Disagreements between the code and the properties

Each line is a theorem with a concrete witness; the property itself is proved in the restricted form named in
MANIFEST.json.

| property | what the code does | theorem |
|----------|--------------------|---------|
| C01 | the GB18030:2005 encoder writes 4 bytes after checking for 2; with 4093 or 4094 letters before one of the six characters even `reiconv_convert` overruns a buffer on the stack | `C01_gb18030_2005_overflow`, `C01_gb18030_2005_exact`, `C01_gb18030_2005_convert` |
| C03, C11 | flushing a held back character with `outleft = 0` writes past the buffer | `C03_flush_overflow`, `C03_flush_overflow_all`, `C03_registered_violation`, `C03_exact`, `C11_exact` |
| C08, C13 | a buffer of exactly `result_size` bytes is too small when the last character is dropped | `C08_exact_buffer_too_small`, `C08_tag_too_small`, `C08_jp2_tag_too_small`, `C08_exact`, `C13_exact` |
| C09, C16 | after reset the byte order of the previous text is kept, so a second text is read wrongly | `C09_wrong_text`, `C09_exact`, `C16_reset_keeps_byte_order`, `C16_exact` |
| C10 | the encoders of UTF-16 and UTF-7 store a byte order mark or "+" before they reject a character | `C10_rest_overwritten`, `C10_exact` |
| C12, C47 | HZ accepts bytes from 0x80 | `C12_hz_eight_bit`, `C47_hz_violation` |
| C47 | ISO-2022-JP-2 accepts C1 controls and ISO-8859-7 controls after ESC N, and Kana after ESC ( I | `C47_jp2_violation`, `C47_jp2_kana_violation` |
| C47 | CP50221 accepts SO and SI where they have no meaning, and reads row 13 column 64 as U+301E where CP932 has U+301D | `C47_cp50221_shift_violation`, `C47_cp50221_quote_violation` |
| C47 | HZ writes a tilde as one byte | `C47_hz_tilde_violation` |
| C55 | UTF-7 input with `+` before a byte outside base64, with bits other than zero at the end, or with half a surrogate pair is accepted | `C55_empty_violation`, `C55_pad_violation`, `C55_surrogate_violation` |
| C56 | byte order marks inside a text are dropped or change the byte order of the rest; `reiconv_convert` then fails with E2BIG | `C56_inner_violation` |
| C58 | the UCS-4 family, C99 and UTF-7 accept surrogates or values above U+10FFFF, which come out as U+FFFD in UTF-8 | `C58_beyond_violation`, `C58_registered` |
| C59 | a NULL `output_length_ptr` is no error; `reiconv_convert_static_size` returns 0, not the length | `C59_null_length`, `C59_static_return` |
| C17 | a failed `reiconv_convert` leaves the state of the descriptor changed | `C17_failed_convert_leaves_state`, `C17_sources`, `C17_targets` |
| C18 | `reiconv_convert_static_size` accepts truncated input | `C18_static_accepts_truncated`, `C18_exact` |
| C20 | `reiconv_convert` can return bytes it never wrote | `C20_uninitialised_output` |
| C22, C23 | U+FEFF at the start of a text is lost | `C22_feff_lost` |
| C69 | saving a text in its own encoding changes its characters in JAVA (`\u005cu00C0`), HZ (`~~~~`), CP1258 and TCVN (a letter with two marks) | `C69_violation`, `C69_registered` |
| C70 | UTF-16 replaces U+FFFE, which UTF-16BE and UTF-16LE have | `C70_utf16_violation` |
| C71 | encodings that are commonly taken for extensions are none: GBK, CP936 and GB18030 read the middle dot and the dash of EUC-CN as other characters, CP949 rejects the postal code mark of EUC-KR, GB18030 the euro sign of CP936 | `C71_violation` |
| C26 | backslashes are not escaped; the letters G to Z count as digits | `C26_backslash_lost`, `C26_letters_beyond_f` |
| C28 | ARMSCII-8 writes "(" as 0xA5; SHIFT_JISX0213 reads 0x5C as U+00A5 | `C28_armscii`, `C28_shift_jisx0213`; all 98 encodings that are not supersets of ASCII: `C28_registered` |
| C29 | CP1258 and TCVN read some listed byte sequences as other characters, and CP1255, CP1258 and TCVN read as one character sequences that no table lists; the exact set is `C29_combining_exact` | `C29_combining_violated` |
| C30 | tags and discarded characters are lost although the call succeeds; EUC-JISX0213 spells some characters twice | `C30_tags_lost`, `C30_discard_lost`, `C30_jisx0213_changed` |
| C32 | 14 declared names are not found, 2 undeclared ones are | `C32_lost`, `C32_extra` |
| C33 | long names overflow the buffer; bytes above 127 index the hash table out of bounds; `//IGNORE` overflows | `C33_long`, `C33_high`, `C33_ignore_overflow`; `C33_exact`, `C37_exact`, `C36_exact` say exactly for which strings |
| C34 | code pages out of range index the table out of bounds | `C34_out_of_range` |
| C36 | `//IGNORED` counts as `//IGNORE` | `C36_target_not_suffix` |
| C38 | unconvertible input throws `std::length_error` and leaks the descriptor | `C38_wrong_exception` |
| C40 | wrong or missing names for some Windows code pages | `C40_wrong`, `C40_unknown` |
| C42 | CP50221 writes 375 characters like others | `C42_cp50221_lost`, `C42_cp50221_witness` |
| C42 | 23 registered encodings do not read back what they write: byte order marks, escapes, control sequences, letters with marks, folded characters | `C42_registered` (list `changed`) |
| C30 | 36 registered encodings have several spellings of a text and write another one than was read | `C30_registered` (list `rewritten`) |
| C43 | HZ does not double `~`; the ISO 2022 encodings write ESC, SO and SI raw; in CP1255, CP1258 and TCVN an accent at the start combines with the letter before | `C43_hz_tilde`, `C43_hz_tilde_concat`, `C43_jp_escape`, `C43_join_violation`; all 12 encodings: `C43_registered` |
| C45 | GB18030:2005 loses 24 characters | `C45_gb18030_2005_lost`, `C45_gb18030_2005_collision` |
| C49 | with the discard flag the same text succeeds from CP1255 and fails with E2BIG from UTF-8; likewise for every encoding that holds characters back, and a mark inside a text spoils it for those with byte order marks: 14 of the 198 | `C49_depends_on_source`, `C49_exact` |
| C50 | `reiconv_convert` does not check the result of `malloc` and `realloc` | `C50_out_of_memory` |

## Testing the theorems

`tools/mutate.py` applies the edits in `seeded/round*.py` to a scratch copy of the model, one at a time, rebuilds
and records in `seeded/LOG.jsonl` which theorems fail. A surviving edit means a theorem is too weak.

## Trusted base

Lean 4.33.0's kernel; the axioms `propext`, `Classical.choice`, `Quot.sound` (checked with
`#print axioms`); the hand translation of C to Lean, checkable through the cited lines; the table
extraction scripts in `tools/`, which read the C arrays and `tests/data/*.TXT`. No `native_decide`,
no `bv_decide`, no axioms of our own, no `sorry`.
