# Formal model of chemag/h264nal in Lean 4

## 1. Shape of the model

* **Bit layer** (`Verif/Bits.lean`, `Verif/BitBuffer.lean`): `rtc_common.cc` modelled at machine level:
  byte loads, masks, shifts and fixed-width wrap-around are explicit.  A byte access outside the buffer,
  an oversized shift, a signed overflow, a null dereference or a failed `assert` is a distinct outcome
  (`Res.bad`), never assumed away.
* **Parser programs** (`Verif/Prog.lean`): every `Parse*` function is a value of the type `Prog α`
  (calls of the `BitBuffer` API as constructors, `null` = "return nullptr").  One text, two interpreters:
  `run` executes it on the machine-level `BitBuffer`, `runL` executes it on a plain `List Bool`
  ("the unread bits").  A single theorem, by induction on programs, shows that they agree on every
  program and buffer; all parser theorems are then proved about `runL` and transported to `run`.
* **Specifications** (`Verif/Spec/*.lean`): independent of the model: the H.264 syntax tables written as
  *encoders* (`value -> List Bool`), the declarative start-code predicate, the emulation-prevention
  encoder, the abstract cursor, and so on.
* **Properties** (`Verif/Props/*.lean`): the theorems named in `MANIFEST.json`, each followed by an
  `example` that instantiates its hypotheses.

Parser theorems are, wherever the code allows, *exact characterisations*:
`run (ParseX) buffer = ok v  <->  v is in range and the unread bits start with encodeX v`
which gives at once round trip, soundness, injectivity, locality and range checking.

## 2. Trusted base

* Lean 4.33 kernel, and the axioms `propext`, `Classical.choice`, `Quot.sound` (at most; each theorem uses a subset of these).
  No other axioms, no `sorry`, no `native_decide`/`bv_decide`.  `decide +kernel` is used on closed finite statements: its
  evaluation is done by the kernel itself.
* The reading of the C++ source: every definition cites file and lines.  The code was not run.  `Verif/Conformance.lean` runs
  the repository's own unit tests (70 of 72, generated from their text by `tools/gen_conformance.py`) on the model in both build
  modes.  That is a test of the transcription, not a proof of anything; the expectations about dumped text are
  left out; the one about a frame rate is in `Props/Framerate.lean`.
* The transcription of the H.264 syntax tables into the spec encoders (`Verif/Spec`).

### Modelled

| code | model |
|------|-------|
| `rtc_common.cc` BitBuffer, BitBufferWriter (all calls) | `BitBuffer.lean`, `BitWriter.lean` (machine level) |
| `h264_common.cc` UnescapeRbsp, more_rbsp_data, rbsp_trailing_bits, get_current_offset, checksum and its text | `Model/Bytes.lean`, `Model/Basic.lean`, `Model/Checksum.lean`, `Model/Nal.lean` |
| `h264_bitstream_parser.cc` FindNaluIndices, ...ExplicitFraming, ParseBitstream, ParseBitstreamNALULength | `Model/Bytes.lean`, `Model/Nal.lean` |
| NAL unit header, SVC extension, hrd, vui, sps, sps extension, sps svc extension, subset sps, pps | `Model/Basic.lean`, `Model/Sps.lean`, `Model/Pps.lean`, `Model/Subset.lean` |
| slice header, ref_pic_list_modification, pred_weight_table, dec_ref_pic_marking, slice layer, slice layer extension, slice header in scalable extension, prefix NAL unit | `Model/RefPic.lean`, `Model/Slice.lean`, `Model/Scalable.lean`, `Model/Nal.lean` |
| NAL unit, payload, parser state | `Model/Nal.lean`, `Types/Store.lean` |
| the parameter sets in a parser state and in payloads as shared objects: `std::shared_ptr`, its counts, `GetSps`, `GetPps`, `GetSubsetSps`, destruction of states and payloads | `Model/Heap.lean` |
| RTP single, STAP-A, FU-A | `Model/Rtp.lean` |
| `h264_common.cc` NalUnitTypeToString, IsSliceSegment, IsNalUnitTypeReserved, IsNalUnitTypeUnspecified; GetNalUnitType; the `(data, length)` overloads of 19 parsers | `Model/Common.lean` |
| `tools/h264nal.cc` main, from the bytes of the input to the output and the exit status | `Model/Tool.lean` |
| `tools/h264nal.cc` `parse_args` (from the sequence of options that `getopt_long` delivers) and the rest of main; `H264Utils::ReadFile`; `strtol` | `Model/ToolArgs.lean` |
| How often the data is looked at, in the parsers, `UnescapeRbsp`, `FindNaluIndices`, `ParseBitstreamNALULength`, `ParseRtp` (loads and `PeekBits` calls; copying, allocation and the rest of the C++ run time are not counted) | `Model/Work.lean` |
| the 25 targets in `fuzz/`, from the bytes to the return value | `Model/Fuzz.lean` |
| parser states filled by the program: null pointers in the maps and in an SPS | `Model/Handmade.lean` |
| `tools/h264nal-split.py` from the input file to the contents and names of the files written (the regular expressions as the searches they are; file system and command line errors and messages are left out) | `Model/SplitScript.lean` |
| `tools/h264nal-dpb_parse.py` from the input file to the rows of the table (exceptions and the endless loop are outcomes of the model; the command line is left out) | `Model/DpbScript.lean` |
| `tools/h264nal-conformance.py` for one file, from the input file to the row (stderr of the tool is an argument), and for a list of files, with their names, runs that do not end or start, and the text of the table (the command line and the search for the tool are left out) | `Model/SummaryScript.lean`, `Model/SummaryTable.lean` |
| `fuzz/converter.py` from the lines of a unit test to the seeds and the code, and the files it reads and writes (links, rights, missing directories, the command line and messages are left out) | `Model/Converter.lean`, `Model/ConverterFiles.lean` |
| all `fdump` functions, the indentation helpers, profileTypeToString | `Model/Dump.lean` |
| the arguments of `std::log2` in `getSliceGroupChangeCycleLen` and `getSliceGroupIdLen`, as double arithmetic | `Model/FloatLen.lean` |
| `getFramerate`, with IEEE 754 binary64 and binary32 arithmetic (round to nearest, the default mode; no excess precision) | `Model/Framerate.lean` |

### Not modelled, and assumptions

* Memory allocation failure; failure of the writes of `fdump`, and indentation levels near INT_MAX; `FPRINT_ERRORS`
  diagnostics; of the tool: `getopt_long` itself, the messages on standard error and the version text, input files that change or
  fail while they are read.
* Threads (C66): each `BitBuffer` call, each access to the counter and each computation between them is one step; steps of
  different threads interleave in any order.  The counter is `std::atomic` and is the only object with static storage duration
  that the library writes, so that its single modification order is all that relaxed accesses are asked for.  A parser state is
  not shared between threads (the library has no lock for it).
* `size_t` is 64 bits.  Buffers are shorter than 2^61 bytes (no machine holds more), so bit counts do not wrap; where a
  smaller limit matters (the 32-bit assertion in the `BitBuffer` constructor) it is part of the model.
* `std::map` is a finite map.  Parameter sets are modelled as values, although the code shares them with `std::shared_ptr`; C77
  proves that no program sees a difference, unless it writes to a returned parameter set or to the members of a parser state
  (no code of the library does).
* The bit lengths computed with `ceil(log2(...))` in floating point are modelled by their exact integer meaning in the parsers.
  C62 proves that this is what the floating point computation gives, for IEEE 754 double arithmetic and any `std::log2` that is
  exact on powers of two and within 2^-40 of the logarithm; that quality of `std::log2` is assumed.
* `Bad.fuel` is the outcome of a model loop that ran out of its fuel.  It stands for nothing in the code; the safety
  theorems exclude it with the other bad outcomes, which proves that the fuel always suffices.
* C++ undefined behaviour that is modelled as a bad outcome: access outside a buffer, oversized shift, signed overflow, null
  dereference, use of an uninitialised value.  A failed `assert` (absent in NDEBUG builds) and `std::terminate` are bad outcomes
  too.

## 3. Plan per property

| id | modelled | how proved |
|----|----------|------------|
| C01 | PeekBits/ReadBits/ReadUIntN | refinement of machine-level assembly to list of bits |
| C02 | same + ConsumeBits/ConsumeBytes/Seek | case analysis on failing branches |
| C03 | all reader calls as an op type | invariant by induction over call histories; no `bad` outcome |
| C04 | ReadExponentialGolomb | iff with codeword, induction on zero prefix |
| C05 | same, with build-mode flag | theorem for assert builds; negation with witness for NDEBUG |
| C06 | ReadSignedExponentialGolomb | iff with spec codeword, range lemma |
| C07 | WriteBits | bit-list refinement: take ++ new ++ drop |
| C08 | WriteExponentialGolomb, signed | C07 + C04/C06 |
| C09 | Read/WriteNonSymmetric | C07 + C01; negations at num_values 1 and 2^31 |
| C10 | sequences of writes / reads | induction over field list |
| C11, C12 | UnescapeRbsp (index loop) | refinement to structural function, induction |
| C13, C14 | FindNaluIndices (index loop) | loop invariant against declarative set of start codes |
| C15 | mux spec | C13 + combinatorics of start codes in concatenations |
| C16 | FindNaluIndicesExplicitFraming | induction |
| C17 | ParseBitstreamNALULength | iff for every size of the size fields under a condition on what follows the last NAL unit; negations with witnesses |
| C18 | ParseBitstream | fold characterisation |
| C19 | GetNaluChecksum | arithmetic modulo 2^32-1 |
| C20, C21 | more_rbsp_data, rbsp_trailing_bits | list characterisation; witness where C20 differs from the standard |
| C22, C23 | NAL header, SVC header extension | codec iff |
| C24-C26, C30-C34, C43, C44, C48 | HRD, VUI, SPS, PPS, slice syntax, SVC | codec iff by composition |
| C26, C29, C30, C43 | SPS, PPS and subset SPS on every input | exact iff with a relation that also says how malformed scaling lists are read (`Spec/Malformed.lean`), by induction over the lists |
| C27-C29 | SPS safety, resolution, scaling list | corollaries / induction over list |
| C35-C39 | NAL unit / payload / store | induction over NAL histories |
| C40-C42 | RTP | program equalities; witnesses for violations |
| C45 | run in both build modes | equality for programs that do not ignore failures; witness otherwise |
| C46, C53 | fdump of every structure | invariants of parsed structures (pointers present where they are dereferenced), induction over the text; exact condition and witness where C46 fails |
| C49 | GetPrintableChecksum | the text as a function of the four bytes |
| C50 | payload by type | case analysis |
| C51 | whole coded streams, both framings | induction over the stream: escape/unescape, split, header and payload codecs |
| C52 | prefix NAL unit | codec; negations where the extension is not read |
| C47 | classification tables | case analysis for all Nat |
| C54 | GetProfileType | case analysis against a table of Annex A; negation for Constrained High |
| C55 | `(data, length)` overloads | one lemma over an arbitrary program, instantiated for each overload |
| C56 | counter of unimplemented syntax | a judgement `CountsOnce` over parser programs, then characterisation of the NAL units that count; for scalable slice headers the part before the marking is a codec of its own (CountLayer) |
| C57 | exit status of the tool | from C13, C18, C50 and C56 |
| C58 | dump mode of the tool | from C18, C37, C46; loop over the bytes by induction; the options that others imply, by comparing the runs |
| C59 | length mode of the tool | refinement of a table defined from a declarative split into frames, which is proved to exist and be unique |
| C60 | all `fdump` functions | equality with the text of a list of items given per structure (`Spec/DumpItems.lean`), using the range facts of parsed structures; a reader of such texts is proved correct for every well-formed list of items |
| C61 | `getFramerate` | the rounding function of the model is proved to be rounding to nearest, ties to even, over the rationals (`Spec/Rounding.lean`); the conversions and the product are exact, the quotient and the narrowing are one rounding each; a rate cannot be too near to the middle of two floats unless num_units_in_tick > 2^28 |
| C62 | `getSliceGroupChangeCycleLen`, `getSliceGroupIdLen` | P / R + 1 is either a power of two, and then computed exactly, or differs from it by a factor of at least 1 + 2^-32, which two roundings and an inexact log2 cannot bridge (real logarithms from Mathlib) |
| C63 | `parse_args`, `ReadFile`, `ReadStdinToBuffer`, main | fold over the options compared with "the last option for a setting wins"; `strtol` characterised by a grammar of numbers; case analysis of main |
| C64 | calls of `PeekBits` and loads of bytes, counted along the model | potential argument: each parser's count is at most four times the bits it consumes plus a constant, up to the zeros it scanned without consuming them; these are paid by what follows (`Verif/Work*.lean`) |
| C65 | ParseSps, ParsePps, ParseSubsetSps | iff with the relations of `Spec/Malformed.lean`, which describe the reading of lists that are not well formed; the parts around the lists are codecs |
| C66 | the parsers as tasks of threads that share the atomic counter (Model/Threads.lean) | every task follows the model without threads (forward simulation); invariant over all interleavings with ghost counts per thread |
| C67 | `ParseBitstream`, `FindNaluIndices`, `ParseBitstreamNALULength` on a stream and on its pieces (Spec/Pieces.lean) | the start codes of two pieces are those of each (sorted lists with the same members); the NAL units of the whole are those of the pieces; induction over the pieces |
| C68 | two parser states of which one holds whatever the other holds (Spec/State.lean) | simulation: each payload parser looks up the same parameter sets or, with a header returned, the same ones; induction over NAL units, STAP-A units and packets |
| C69 | sequences of RTP packets (`Session`, Spec/StoreRtp.lean) | induction over packets and STAP-A units with `LatestOf`; false for refused STAP-A packets (C69_stapa_not_atomic) |
| C70 | the same NAL units as Annex B stream, with size fields and as RTP packets (`contents`, `singles`, Spec/Remux.lean) | each form is the in-order fold of the same calls (C18, C17, C40), whatever the offsets |
| C71 | streams and RTP sessions of which a part is lost (`kept`, Spec/Loss.lean) | a parser call gives the same at every value of the counter (ShiftLemmas); a NAL unit that is no parameter set leaves the state alone (C35, C50, C69); induction over the list with the mask |
| C72 | streams in which a parameter set comes twice | the parsers of SPS, PPS and subset SPS do not look at the store; storing the latest again changes nothing; units of other types leave that table alone |
| C73 | the elements of all the vectors of a returned object (Spec/Size.lean) | a judgement `Stores`: what a parser stores is at most what it consumes plus a constant (scaling lists can fill 86 elements from a few bits); then sums over NAL units, which cost at least their start code or prefix |
| C74 | `Reachable` (Props/Reach.lean), and what a parser returned for some reader (`ParsedBy`, Spec/Provenance.lean) | what parsing one payload preserves, every call preserves (`reachable_of`) |
| C75 | the same, and the number of stored elements (`storeEntries`) | from C74, the ranges of C36, and the sizes of scaling lists |
| C76 | a heap of parameter sets with reference counts; maps and payloads with addresses (Model/Heap.lean) | the count of every object is the number of pointers, preserved by every step |
| C77 | the same, against the model without pointers (`Values`, Spec/Heap.lean) | a simulation: every step keeps the objects that are still pointed to |
| C78 | ParseNalUnit on beginnings of a NAL unit, and the first FU-A fragment | the exact formats of slice headers (C34) and of scalable slice headers (C48) are prefix free; removing emulation prevention bytes from a beginning gives a beginning |
| C79 | two calls with different options | only the checksum looks at the options; induction over the NAL units |
| C80 | every entry point on a parser state that is only assumed usable (Spec/Handmade.lean); the state with its pointers (Model/Handmade.lean) | a general lemma: a property of states that makes payload parsing safe and is kept by it holds along every function (Handmade.lean); the slice header on a family of states for the converse |
| C81 | the 25 fuzz targets (Model/Fuzz.lean) | C80 and the safety of each parser |
| C82 | the script as a function of the text that the tool writes (Model/SplitScript.lean) | what the regular expressions find in any text made of the fields of C61; induction over the NAL units; C67 for the files |
| C83 | the script as a function of the text that the tool writes (Model/DpbScript.lean); the endless loop is an outcome of its own | what the regular expressions find in any text made of the fields of C61; induction over the pictures against a relation that says what each row holds; C83_window_partial is the statement without marking operations, witnesses show where the table departs from the standard |
| C84 | the script as a function of the text and exit status of the tool and any stderr (Model/SummaryScript.lean) | the texts of C61 are reduced to the list of their field names, opened blocks and values; what each search finds is read off that list, unit by unit; witness for level 1b of the scalable profiles |
| C85 | nothing new: ParseBitstream and ParseBitstreamNALULength on a list of bytes and on its beginning | the start codes of the beginning are the first ones of the whole, so all NAL units but the last agree; C18, C17, C78 and, for SPSs, C91; witnesses for a cut within a start code and within a PPS |
| C86 | nothing new: two runs of ParseBitstream or ParseRtp from the same parser state | the state is the same before each NAL unit of the two runs, by induction (C35, C69), and results depend on the bytes and the state only; witness for an SEI message that becomes an SPS by one wrong bit |
| C87 | nothing new: runs of ParseBitstream or ParseRtp over units in two orders | units without parameter sets keep the state, so a run is independent of their order: induction over the permutation; witness for a slice moved before its PPS |
| C88 | `parse_input` of `fuzz/converter.py` on lists of lines: the loop with its modes, the regular expressions as scanners | induction over lines and literals; the unit test of /repo that breaks it as a witness |
| C89 | the loop over the files, POSIX `os.path` and the default dialect of `csv` (Model/SummaryTable.lean); a small CSV reader as specification (Spec/SummaryTable.lean) | the reader run over what is written, by induction over fields and lines; paths as lists of names |
| C90 | `do_something` and `read_input` of `fuzz/converter.py` on a file system (Model/ConverterFiles.lean) | names by lemmas on `replace`, `join` and `basename`; what every path holds afterwards; C90_overwritten and C90_stale show where the property fails |
| C91 | nothing new: ParseNalUnit on beginnings of a NAL unit of type 7 | as C78, with the exact format of SPSs (C26); the head of the SPS found in a beginning is the head of the whole, so neither has lists; with well-formed lists, what is left of a delta_scale that is cut off is too short for the rest of an SPS; C91_lists_differ shows where the property fails |

## 4. Candidate violations found while reading (to be settled by proofs)

1. `RTC_CHECK(Seek(..))` in ReadExponentialGolomb disappears under NDEBUG: position not restored (C05, C45).
2. `WriteBits(val, 0)` shifts by 64 and touches the current byte (C07); `ReadNonSymmetric(1)` always fails,
   `num_values = 2^31` shifts by 32 (C09).
3. ParseBitstreamNALULength stores `nalu_length_bytes` as the NAL length, and `i + nalu_length` wraps for
   8-byte lengths; of longer ones only the last 8 bytes count (C17).
4. more_rbsp_data is true on trailing zero bytes (C20).
5. Scaling-list failures are ignored; 8x8 lists overwrite the 4x4 flags; only the last list is kept (C29).
6. STAP-A ignores nal_unit_size when parsing and unescapes across the aggregation header: slices and
   delimiters make the packet fail, a PPS before another unit is misread, and parameter sets are changed although null is
   returned (C41_slice_lost, C41_delimiter_lost, C41_pps_misread, C41_emulation_lost, C41_size_ignored).
7. FU-A start fragments of types 14/20 skip the header extension (C42).
8. The stateful ParseBitstream overload does not store the options; fdump ignores the options it is given and dereferences a
   null checksum if there was no add_checksum (C46_stateful, C46_stateful_witness).
9. FindNaluIndices ignores a start code in the last three bytes (by design of `i < end`).
10. IsNalUnitTypeUnspecified(0) is false although type 0 is unspecified (C47).
11. The PPS parser always takes chroma_format_idc = 1 for its scaling lists; results of rbsp_trailing_bits are ignored; the
    picture size check lets 1056 macroblocks through where the comment says 1055 (C30, C28).
12. The slice header in scalable extension ignores the PPS defaults for num_ref_idx_active (C48_defaults_ignored).
13. The subset SPS parser does not read svc_vui_parameters, mvc and mvcd extensions and misreads what follows
    (C43_svc_vui_misread, C43_mvc_misread).
14. FindNaluIndicesExplicitFraming: `4 + size` wraps in 32 bits (C16).
15. A final 0x03 that an encoder appends after trailing zero bytes is only removed after an even number of them (C12).
16. The BitBuffer constructor asserts size <= 2^32-1: a NAL unit above 4 GiB aborts in assert builds (C37_huge_nal_unit).
17. The checksum accumulator drops carries above 64 bits, so beyond 16 GiB the checksum is not the one's-complement sum; 2^34 + 8 bytes 0xFF
    give 1 instead of 0 (C19, `C19_sum_overflows`; without assertions only, with them `BitBuffer` accepts at most 4 GiB).
18. In prefix NAL units the else branch is on the wrong condition: for nal_ref_idc = 0 the extension flag is not read
    (C52_reference_idc_zero, C52_data_missed).
19. The NDEBUG behaviour of (1) is visible in results: the parsed length of a truncated slice differs between builds, and an SPS
    whose scaling list holds a malformed code is returned and stored by NDEBUG builds only (C45_parsed_length_differs,
    C45_sps_differs), and a STAP-A packet with a cut-off slice is returned by NDEBUG builds only (C45_stapa_differs).  Apart from NAL units with a
    scaling list in which a delta_scale cannot be read (C45_scaling_list) both builds agree (C45_nal_unit_partial).
20. GetProfileType tests constraint_set4_flag before constraint_set5_flag: a Constrained High SPS (both flags 1) is reported as
    Progressive High, and High with constraint_set5_flag alone as Constrained High (C54_constrained_high).
21. Tool: with size fields the reported length is the size of the size field (3), so contents and bit rates are wrong
    (C58_length_contents_wrong, C59_length_wrong), and NAL units that are dropped leave the exit status 0 (C57_length_dropped).
22. Tool: an enhancement layer slice whose header could not be parsed (no parameter sets) gives exit status 0 (C57_orphan).
23. Tool: the bit rate overflows a signed 64-bit integer for a 512 MiB frame and a frame rate of 2^31 - 1, which the argument
    parser accepts (C59_rate_overflow).
24. The dump of HRD parameters lacks cpb_size_scale, so two different SPS have the same dump (C60_cpb_size_scale_hidden); the
    dump of a prefix NAL unit lacks additional_prefix_nal_unit_extension_flag (C60_prefix_flag_hidden).
25. Some signed members are printed as unsigned numbers: slice_alpha_c0_offset_div2 and slice_beta_offset_div2 of a slice
    header, all signed scalars of a scalable slice header, and the seq_scaled_ref_layer offsets (`mod32` in
    `Spec/DumpItems.lean`; C60_negative_offset: -6 is shown as 4294967290).
26. UseDefaultScalingMatrix8x8Flag is always shown with no values (`Spec/DumpItems.lean`).
27. getFramerate rounds twice, to double and then to float, so for some timing fields (num_units_in_tick above 2^28) the result is
    not the nearest float (C61_not_nearest). Without timing information it divides 0 by 0 and returns NaN (C61_absent).
28. Tool: `--nalu-length-bytes -1`, which the usage text offers, is refused (C63_documented_default_refused), and an empty number is
    taken for 0 (C63_empty_number). The usage text also says that the input defaults to standard input and that `-q` is an option;
    without `-i` the tool exits with 255, and `-q` is not in the list of short options. An avcC file is never read: with an avcC
    file only, even one that does not exist, the exit status is 0 (C63_avcc_not_read).
29. A STAP-A packet that is refused has changed the parser state all the same: the parameter sets of the NAL units before the one that
    fails stay stored, although null is returned (C69_stapa_not_atomic, also C41_slice_lost).
30. The SPS, PPS and subset SPS in a result, and those that `GetSps`, `GetPps` and `GetSubsetSps` return, are not `const` and are the
    objects that the parser state uses (C77_shared, with an example in Props/Heap.lean): a program that changes a field of a returned
    SPS, say to print it differently, changes how later slices are parsed.
31. A PPS that is cut off where its optional last part begins is accepted and stored as a PPS without that part (C78_pps_differs): the
    beginning of a PPS with the 8x8 transform replaces the stored PPS by one without it.  An RTP receiver that passes a first fragment
    of a fragmented PPS to the parser stores such a PPS; a slice cut off in the same way is never misread (C78_exactly).
32. The maps of `H264BitstreamParserState` are public and of pointers, and the slice header parsers test only whether a key is present:
    a null pointer stored under a key, which `state.pps[id];` alone does, is dereferenced (C80_null_pointers).  An SPS put there by the
    program with a bit depth for which `51 + 6 * x` overflows, or a PPS with slice_group_change_rate_minus1 = UINT32_MAX, gives undefined
    behaviour as well (C80_depth_needed, C80_rate_needed).  The parser itself never stores any of these.
33. fuzz/h264_slice_header_in_scalable_extension_parser_fuzzer.cc sets up an SPS but no subset SPS, and no SVC extension of the NAL unit
    header: on every input the parser returns null right after the third syntax element (C81_scalable_target_blind), so that this
    target tests nothing of the function it is named after.
34. tools/h264nal-split.py searches the text of an SPS for `width: (\d+)` and `height: (\d+)`.  The first match of these in an SPS with
    aspect_ratio_idc = 255 is in `sar_width:` and `sar_height:`: the script compares sample aspect ratios.  It does not split where the
    resolution changes but the sample aspect ratio does not (C82_missed), and splits where only the latter changes (C82_needless).
    Also, a file it writes need not make sense on its own: parameter sets that are not repeated stay in an earlier one (C82_not_alone).
35. tools/h264nal-dpb_parse.py simulates the decoded picture buffer, with these faults:
    - its sliding window loops for ever if more long-term pictures are held than max_num_ref_frames.  A conforming stream can cause this,
      because the limit of the last SPS of the stream is used for all pictures (C83_endless; C83_outcome says exactly when it happens);
    - a stream without SPS raises KeyError (C83_no_sps);
    - a reference picture with marking operations is not entered as a short-term picture (C83_adaptive_not_entered);
    - operations 1 and 3 and the order of references ignore that frame_num starts again (C83_operation_1_wrapped, C83_order_wrapped);
    - operation 2 does nothing (C83_operation_2), operation 3 leaves an index to two pictures (C83_operation_3_index);
    - slice types 5 to 9 are not known: such pictures refer to nothing (C83_slice_type_5);
    - the default number of references is that of the last PPS, whichever the slice refers to (C83_other_pps).
36. tools/h264nal-conformance.py takes level_idc 9 for level 1b only if profile_idc is 44, 100, 110, 122 or 244.  A subset SPS of a scalable or
    multiview profile of level 1b is shown with level 0.9 (C84_level_scalable).
37. If a stream is cut within a start code, the bytes of the start code count as part of the NAL unit before it, and can complete a slice
    header that the whole stream does not have (C85_start_code).  If it is cut within a PPS, another PPS can be stored (C85_pps): the
    optional part at its end then counts as absent.
38. `fuzz/converter.py` ends an array only at a line `};` without indentation or at the mark of the code, and looks for `0x` and two
    lower-case digits anywhere in between.  In `test/h264_sps_parser_unittest.cc` the array of line 91 has neither (its end is indented), so
    the picture sizes 320x240 and 320x232 in the comments before the next mark add the bytes 24 and 23 to the seed (C88_comment).  Literals in
    upper case are left out of a seed (C88_upper_case).
    As a check of the transcription, `convert` was evaluated on the text of the 23 unit tests that have a fuzzer in the repository.  For 21 of
    them the file it writes is the checked-in fuzzer, character for character.  The other two fuzzers
    (`h264_slice_header_in_scalable_extension_parser_fuzzer.cc` and `h264_slice_layer_extension_rbsp_parser_fuzzer.cc`) do not come from the
    present tests: they were edited after they were generated, although their first lines say not to, and running the script again changes them.
39. `fuzz/converter.py` does not remove seeds: when an array is taken out of a unit test, the file of the last seed stays in the corpus
    (C90_stale).  For a test without `unittest` in its name the fuzzer has the name of the test and is written over it if the directory is the
    same (C90_overwritten).  With `-` (standard input) the script always raises TypeError, because it asks for the base name of the stream; a file
    that cannot be opened ends in UnboundLocalError; a `%` in the name of the directory is taken for a format (C90_ends says exactly which runs
    end without an exception).
40. The beginning of an SPS can be accepted and stored as a different SPS when a scaling list is malformed (C91_lists_differ): the failed read of
    a delta is ignored, and the fields that follow are read from the place where it failed.  Where that is depends on the build mode, so each
    mode has its own witness.  Without scaling matrix, or when all lists of the whole SPS are
    well-formed, this cannot happen (C91_exactly, C91_exactly_lists_partial).
