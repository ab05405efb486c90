{
 "claims": [
  {
   "property": "C01",
   "status": "proved",
   "theorems": [
    "Hangul.C01_split_join"
   ],
   "note": ""
  },
  {
   "property": "C02",
   "status": "proved",
   "theorems": [
    "Hangul.C02_join_split",
    "Hangul.C02_join_injective"
   ],
   "note": ""
  },
  {
   "property": "C03",
   "status": "proved",
   "theorems": [
    "Hangul.C03_join_total"
   ],
   "note": ""
  },
  {
   "property": "C04",
   "status": "partial",
   "theorems": [
    "Hangul.C04_join_rejects_bad_tail_fails",
    "Hangul.C04_join_bad_tail_partial"
   ],
   "note": "False of the code: Join drops an invalid tail instead of rejecting it (negation proved); the partial theorem gives the exact result."
  },
  {
   "property": "C05",
   "status": "proved",
   "theorems": [
    "Hangul.C05_split_unicode",
    "Hangul.C05_split_injective"
   ],
   "note": ""
  },
  {
   "property": "C06",
   "status": "proved",
   "theorems": [
    "Hangul.C06_join_split_detects"
   ],
   "note": ""
  },
  {
   "property": "C07",
   "status": "proved",
   "theorems": [
    "Hangul.C07_splitCompat"
   ],
   "note": ""
  },
  {
   "property": "C08",
   "status": "proved",
   "theorems": [
    "Hangul.C08_conjoining_roundtrip"
   ],
   "note": ""
  },
  {
   "property": "C09",
   "status": "proved",
   "theorems": [
    "Hangul.C09_compat_roundtrip",
    "Hangul.C09_zero"
   ],
   "note": ""
  },
  {
   "property": "C10",
   "status": "proved",
   "theorems": [
    "Hangul.C10_classifiers"
   ],
   "note": ""
  },
  {
   "property": "C11",
   "status": "proved",
   "theorems": [
    "Hangul.C11_conversions",
    "Hangul.C11_lead_tail_domain"
   ],
   "note": ""
  },
  {
   "property": "C12",
   "status": "proved",
   "theorems": [
    "Hangul.C12_domain",
    "Hangul.C12_elements",
    "Hangul.C12_spelling"
   ],
   "note": ""
  },
  {
   "property": "C13",
   "status": "partial",
   "theorems": [
    "Hangul.C13_fully_split_fails",
    "Hangul.C13_fully_split_partial"
   ],
   "note": "False of the code for ㅞ only (negation proved); partial: all other letters."
  },
  {
   "property": "C14",
   "status": "partial",
   "theorems": [
    "Hangul.C14_history_independent_fails",
    "Hangul.C14_split_partial",
    "Hangul.C14_history_independent_partial",
    "Hangul.C14_stroke_partial",
    "Hangul.C14_shape_partial",
    "Hangul.C14_stored_partial",
    "Hangul.C14_sum_partial"
   ],
   "note": "False of the code: the slice returned by SplitMultiElement is the package's own table (negation proved by a concrete history); partial: holds for histories without writes through a returned slice; for every history the exact answer (each element replaced by what was stored last in its place), and Stroke of a syllable stays the sum of its parts."
  },
  {
   "property": "C15",
   "status": "proved",
   "theorems": [
    "Hangul.C15_stroke_syllable",
    "Hangul.C15_stroke_spelling",
    "Hangul.C15_stroke_same_letter"
   ],
   "note": ""
  },
  {
   "property": "C16",
   "status": "proved",
   "theorems": [
    "Hangul.C16_stroke_positive"
   ],
   "note": ""
  },
  {
   "property": "C17",
   "status": "partial",
   "theorems": [
    "Hangul.C17_stroke_additive_fails",
    "Hangul.C17_stroke_additive_partial",
    "Hangul.C17_stroke_letters_partial"
   ],
   "note": "False of the code for ㅞ only (negation proved); partial: all other letters."
  },
  {
   "property": "C18",
   "status": "proved",
   "theorems": [
    "Hangul.C18_last_consonant",
    "Hangul.C18_every_syllable",
    "Hangul.C18_empty"
   ],
   "note": ""
  },
  {
   "property": "C19",
   "status": "partial",
   "theorems": [
    "Hangul.C19_zero_otherwise_fails",
    "Hangul.C19_zero_partial"
   ],
   "note": "False of the code: \"abc\" gets a consonant (negation proved); partial: exact characterisation for every byte string."
  },
  {
   "property": "C20",
   "status": "proved",
   "theorems": [
    "Hangul.C20_ends_with_consonant",
    "Hangul.C20_iff"
   ],
   "note": ""
  },
  {
   "property": "C21",
   "status": "proved",
   "theorems": [
    "Hangul.C21_shape",
    "Hangul.C21_choice",
    "Hangul.C21_empty",
    "Hangul.C21_by_last_consonant"
   ],
   "note": ""
  },
  {
   "property": "C22",
   "status": "proved",
   "theorems": [
    "Hanja.C22_isHanja"
   ],
   "note": ""
  },
  {
   "property": "C23",
   "status": "proved",
   "theorems": [
    "Hanja.C23_reading_syllable",
    "Hanja.C23_all_runes"
   ],
   "note": ""
  },
  {
   "property": "C24",
   "status": "proved",
   "theorems": [
    "Hanja.C24_rune_by_rune",
    "Hanja.C24_rune_count",
    "Hanja.C24_byte_count"
   ],
   "note": ""
  },
  {
   "property": "C25",
   "status": "proved",
   "theorems": [
    "Hanja.C25_idempotent"
   ],
   "note": ""
  },
  {
   "property": "C26",
   "status": "partial",
   "theorems": [
    "Hanja.C26_untouched_fails",
    "Hanja.C26_untouched_partial"
   ],
   "note": "False of the code for invalid UTF-8 (negation proved); partial: untouched exactly when valid UTF-8 without hanja."
  },
  {
   "property": "C27",
   "status": "proved",
   "theorems": [
    "Hanja.C27_concat",
    "Hanja.C27_concat_boundary",
    "Hanja.C27_condition_needed"
   ],
   "note": ""
  },
  {
   "property": "C28",
   "status": "proved",
   "theorems": [
    "Cp949.C28_roundtrip_unicode",
    "Cp949.C28_repertoire"
   ],
   "note": ""
  },
  {
   "property": "C29",
   "status": "proved",
   "theorems": [
    "Cp949.C29_roundtrip_cp949",
    "Cp949.C29_unique"
   ],
   "note": ""
  },
  {
   "property": "C30",
   "status": "proved",
   "theorems": [
    "Cp949.C30_error_iff"
   ],
   "note": ""
  },
  {
   "property": "C31",
   "status": "proved",
   "theorems": [
    "Cp949.C31_decodes",
    "Cp949.C31_valid"
   ],
   "note": ""
  },
  {
   "property": "C32",
   "status": "proved",
   "theorems": [
    "Cp949.C32_concat"
   ],
   "note": ""
  },
  {
   "property": "C33",
   "status": "proved",
   "theorems": [
    "Cp949.C33_concat",
    "Cp949.C33_concat_boundary"
   ],
   "note": ""
  },
  {
   "property": "C34",
   "status": "proved",
   "theorems": [
    "Cp949.C34_ascii",
    "Cp949.C34_ascii_inside"
   ],
   "note": ""
  },
  {
   "property": "C35",
   "status": "proved",
   "theorems": [
    "Cp949.C35_inverse",
    "Cp949.C35_codes",
    "Cp949.C35_complete"
   ],
   "note": ""
  },
  {
   "property": "C36",
   "status": "proved",
   "theorems": [
    "Cp949.C36_total"
   ],
   "note": ""
  },
  {
   "property": "C37",
   "status": "partial",
   "theorems": [
    "Cp949.C37_one_question_mark_fails",
    "Cp949.C37_one_question_mark_partial",
    "Cp949.C37_exact"
   ],
   "note": "False of the code for characters whose low 16 bits exceed FFE6, e.g. U+FFFD becomes '??' (negation proved); partial: one '?' for all characters up to U+FFE6, and the exact output for every character."
  },
  {
   "property": "C38",
   "status": "partial",
   "theorems": [
    "Cp949.C38_no_wrong_character_fails",
    "Cp949.C38_no_wrong_character_partial",
    "Cp949.C38_affected_partial"
   ],
   "note": "False of the code: U+1AC00 is written as 가 (negation proved); partial: no wrong character for c <= U+FFFF, and the exact set of affected characters."
  },
  {
   "property": "C39",
   "status": "proved",
   "theorems": [
    "Props.C39_deterministic",
    "Props.C39_delivers",
    "Props.C39_every_chunking",
    "Props.C39_any_caller"
   ],
   "note": ""
  },
  {
   "property": "C40",
   "status": "partial",
   "theorems": [
    "Props.C40_chunking_fails",
    "Props.C40_chunking_partial",
    "Props.C40_any_stream_partial",
    "Props.C40_exact_partial"
   ],
   "note": "False of the code for streams that end inside a character (negation proved); partial: holds for all streams on which From succeeds, and for any stream the error is the source's and the delivered bytes are From of a beginning whose remainder is empty or cut inside a character; C40_exact_partial: what is decoded are exactly the source reads up to the last one that ended between characters, for every source and any buffers."
  },
  {
   "property": "C41",
   "status": "proved",
   "theorems": [
    "Props.C41_decoded_prefix",
    "Props.C41_nothing_lost"
   ],
   "note": ""
  },
  {
   "property": "C42",
   "status": "partial",
   "theorems": [
    "Props.C42_all_lost_fails",
    "Props.C42_truncated_fails",
    "Props.C42_never_reported_fails",
    "Props.C42_truncated_partial"
   ],
   "note": "False of the code: the end inside a character is never reported (negation proved, also in general); partial: what is delivered of a truncated stream (exactly: C40_exact_partial) and which error is reported."
  },
  {
   "property": "C43",
   "status": "proved",
   "theorems": [
    "Props.C43_contract",
    "Props.C43_error_is_final",
    "Props.C43_no_panic"
   ],
   "note": ""
  },
  {
   "property": "C44",
   "status": "partial",
   "theorems": [
    "Props.C44_empty_buffer_fails",
    "Props.C44_empty_read_fails",
    "Props.C44_empty_buffer_partial",
    "Props.C44_empty_source_read_exact",
    "Props.C44_later_empty_buffer_fails",
    "Props.C44_empty_buffer_fetch_partial"
   ],
   "note": "False of the code: an empty first Read, or a source read of 0 bytes, ends the stream for good (negations proved); the same can happen after data has been delivered; partial: harmless while decoded bytes wait, after an error, or when the next source read brings whole characters; and a source read of 0 bytes is treated exactly as the end of file (C44_empty_source_read_exact)."
  },
  {
   "property": "C45",
   "status": "partial",
   "theorems": [
    "Props.C45_terminates_fails",
    "Props.C45_withheld_fails",
    "Props.C45_finite_partial",
    "Props.C45_prompt_partial",
    "Props.C45_running_partial"
   ],
   "note": "False of the code: an infinite source can keep Read looping for ever, and a complete character is withheld while a cut one follows (negations proved); partial: finite sources terminate within |D|+3 rounds, a source read that completes the pending input ends the call, and a call still running after n+2 rounds has seen n source reads that all ended inside a character (C45_running_partial)."
  },
  {
   "property": "C46",
   "status": "proved",
   "theorems": [
    "Props.C46_forwards",
    "Props.C46_encodes",
    "Props.C46_deterministic"
   ],
   "note": ""
  },
  {
   "property": "C47",
   "status": "partial",
   "theorems": [
    "Props.C47_cut_exact",
    "Props.C47_unchanged_iff_partial",
    "Props.C47_split_fails",
    "Props.C47_split_partial",
    "Props.C47_exact"
   ],
   "note": "False of the code for cuts inside a UTF-8 sequence (negation proved: 가 becomes six '?'); partial: cuts at character boundaries of any bytes, and the exact output for any cuts: cut characters, and only these, become two question marks per byte, so the output is the encoding of the whole iff no character is cut."
  },
  {
   "property": "C48",
   "status": "proved",
   "theorems": [
    "Props.C48_reports",
    "Props.C48_one_call_each"
   ],
   "note": ""
  },
  {
   "property": "C49",
   "status": "partial",
   "theorems": [
    "Props.C49_destination_fails",
    "Props.C49_destination_partial"
   ],
   "note": "False of the code: nDst may exceed len(dst) with a nil error (negation proved); partial: nSrc is in range, dst keeps its length, and nDst is in range exactly when the conversion fits."
  },
  {
   "property": "C50",
   "status": "proved",
   "theorems": [
    "Props.C50_decoder",
    "Props.C50_encoder",
    "Props.C50_room"
   ],
   "note": ""
  },
  {
   "property": "C51",
   "status": "partial",
   "theorems": [
    "Props.C51_decoder_iff_partial",
    "Props.C51_encoder_iff_partial",
    "Props.C51_pieces_fails",
    "Props.C51_pieces_partial"
   ],
   "note": "False of the code: atEOF is ignored, a cut CP949 character is a hard error and a cut UTF-8 character becomes '?' (negation proved); partial: cuts between characters; and exactly: the decoder refuses a piece iff it ends inside a character, the encoder's pieces give the encoding of the whole iff no character is cut, with the exact output otherwise."
  },
  {
   "property": "C52",
   "status": "proved",
   "theorems": [
    "Props.C52_growth",
    "Props.C52_append_rune",
    "Props.C52_ensure_cap",
    "Props.C52_grow_terminates"
   ],
   "note": ""
  },
  {
   "property": "C53",
   "status": "proved",
   "theorems": [
    "Props.C53_from",
    "Props.C53_to",
    "Props.C53_apart"
   ],
   "note": ""
  },
  {
   "property": "C54",
   "status": "proved",
   "theorems": [
    "Props.C54_same_as_copies",
    "Props.C54_next_call",
    "Props.C54_delivers"
   ],
   "note": ""
  },
  {
   "property": "C55",
   "status": "proved",
   "theorems": [
    "Props.C55_same_as_copies",
    "Props.C55_next_call"
   ],
   "note": ""
  },
  {
   "property": "C56",
   "status": "proved",
   "theorems": [
    "Props.C56_decoder",
    "Props.C56_encoder"
   ],
   "note": ""
  },
  {
   "property": "C57",
   "status": "proved",
   "theorems": [
    "Cp949.C57_areas",
    "Cp949.C57_syllables",
    "Cp949.C57_order"
   ],
   "note": "The areas (Spec.KsCode, Spec.ExtCode) are written from the standard, not from the tables."
  },
  {
   "property": "C58",
   "status": "proved",
   "theorems": [
    "Cp949.C58_sort_order",
    "Cp949.C58_extension_differs"
   ],
   "note": "Also proved that the extension area is a genuine exception (C58_extension_differs)."
  },
  {
   "property": "C59",
   "status": "proved",
   "theorems": [
    "Cp949.C59_rows"
   ],
   "note": "The runs (Spec.rows) are written from the standard, not from the tables."
  },
  {
   "property": "C60",
   "status": "partial",
   "theorems": [
    "Hanja.C60_no_hanja_left_fails",
    "Hanja.C60_no_hanja_left_partial",
    "Hanja.C60_area_partial",
    "Hanja.C60_outside"
   ],
   "note": "False of the code: the 268 compatibility ideographs (U+F900-FA0B) of KS X 1001 are not in the hanja table (negation proved); partial: whatever is left is such a character and was there before, and every other position of the area is converted."
  },
  {
   "property": "C61",
   "status": "partial",
   "theorems": [
    "Hanja.C61_reading_order_fails",
    "Hanja.C61_reading_order_partial",
    "Hanja.C61_exceptions_needed"
   ],
   "note": "False of the code: 13 hanja with several readings are filed by KS X 1001 under another reading than the table gives (negation proved); partial: true for all pairs without these 13; and each of the 13 is out of order with some other hanja (C61_exceptions_needed)."
  },
  {
   "property": "C62",
   "status": "proved",
   "theorems": [
    "Hanja.C62_width",
    "Hanja.C62_needs_repertoire"
   ],
   "note": "For texts outside the repertoire it does not hold, e.g. U+3400 (C62_needs_repertoire)."
  },
  {
   "property": "C63",
   "status": "proved",
   "theorems": [
    "Hanja.C63_eucKr",
    "Hanja.C63_eucKr_bytes"
   ],
   "note": ""
  },
  {
   "property": "C64",
   "status": "proved",
   "theorems": [
    "Props.C64_write_read"
   ],
   "note": "Composition of C46 and C39 for adaptive callers."
  },
  {
   "property": "C65",
   "status": "partial",
   "theorems": [
    "Props.C65_copy_iff_partial",
    "Props.C65_copy_partial",
    "Props.C65_copy_fails"
   ],
   "note": "False of the code: for every even buffer size that is not a multiple of 3 (32768 for io.Copy) a Korean stream is damaged (negation proved); partial: buffers with room for the whole decoded stream; and for any buffers, the copy is the stream iff no delivery ends within a character, with the exact damage otherwise."
  },
  {
   "property": "C66",
   "status": "partial",
   "theorems": [
    "Props.C66_decoder_bytes_partial",
    "Props.C66_decoder_bytes_fails",
    "Props.C66_encoder_bytes_exact",
    "Props.C66_encoder_bytes_partial",
    "Props.C66_encoder_bytes_fails"
   ],
   "note": "False of the code: decoding panics exactly when the text has a character from U+0800 on (every Hangul syllable), encoding panics exactly when To is longer than its argument, e.g. for one invalid byte; valid UTF-8 is encoded as To does. Over an environment model of golang.org/x/text."
  },
  {
   "property": "C67",
   "status": "partial",
   "theorems": [
    "Props.C67_deterministic",
    "Props.C67_reader_partial",
    "Props.C67_long_panics",
    "Props.C67_reader_fails",
    "Props.C67_split_fails"
   ],
   "note": "False of the code: a first chunk whose conversion exceeds 4096 bytes (1366 syllables) panics, a chunk that ends inside a character gives ErrCP949UnexpectedStream for ever; partial: chunks of whole characters with at most 4096 converted bytes. Over an environment model of golang.org/x/text."
  },
  {
   "property": "C68",
   "status": "partial",
   "theorems": [
    "Props.C68_exact",
    "Props.C68_writer_partial",
    "Props.C68_writer_fails"
   ],
   "note": "False of the code: Write panics exactly when To of the piece exceeds 4096 bytes; partial: pieces at character boundaries below that. Over an environment model of golang.org/x/text."
  },
  {
   "property": "C69",
   "status": "proved",
   "theorems": [
    "Props.C69_result",
    "Props.C69_no_panic",
    "Props.C69_returns",
    "Props.C69_frame",
    "Props.C69_no_race",
    "Props.C69_argument"
   ],
   "note": "Steps are single byte accesses and allocations; memory is sequentially consistent. Other goroutines are assumed not to write a running call's argument (a data race of the caller) and have no reference to its private buffers."
  },
  {
   "property": "C70",
   "status": "proved",
   "theorems": [
    "Props.C70_linear",
    "Props.C70_lookup_from",
    "Props.C70_lookup_to"
   ],
   "note": "Steps as in C69. The hypothesis on append holds of Go's run time (example in Props/Cost)."
  },
  {
   "property": "C71",
   "status": "partial",
   "theorems": [
    "Props.C71_decomposed_fails",
    "Props.C71_open_partial",
    "Props.C71_closed_partial",
    "Props.C71_agree_closed"
   ],
   "note": "False of the code: 그 spelled with jamo takes 은. Exact partials: decomposed open syllables are treated as closed unless the vowel is ㅢ, decomposed closed ones get the right form except ㄵ and ㄹ with 으로."
  },
  {
   "property": "C72",
   "status": "proved",
   "theorems": [
    "Props.C72_order",
    "Props.C72_letters"
   ],
   "note": ""
  },
  {
   "property": "C73",
   "status": "partial",
   "theorems": [
    "Props.C73_hanja_fails",
    "Props.C73_direct_partial",
    "Props.C73_converted_partial",
    "Props.C73_reading"
   ],
   "note": "False of the code: 大 (대) takes 은. Partial: exact choice for the direct call; right after hanja.Convert."
  },
  {
   "property": "C74",
   "status": "partial",
   "theorems": [
    "Props.C74_decoder_partial",
    "Props.C74_decoder_short_partial",
    "Props.C74_decoder_fails",
    "Props.C74_encoder_partial",
    "Props.C74_encoder_short_partial",
    "Props.C74_encoder_fails"
   ],
   "note": "False of the code: decoding 43 or more syllables panics, a character across a multiple of 128 bytes is refused; encoding 43 to 62 syllables returns damaged text without an error, 63 or more panic (negations proved). Exact partials for all strings. Over an environment model of golang.org/x/text."
  },
  {
   "property": "C75",
   "status": "proved",
   "theorems": [
    "Props.C75_constants",
    "Props.C75_compat",
    "Props.C75_conjoining",
    "Props.C75_elements"
   ],
   "note": "Names from the Unicode Character Database 14.0.0 as shipped with Python's unicodedata; the comments of constant.go are transcribed by tools/gen_unicode.py."
  },
  {
   "property": "C76",
   "status": "proved",
   "theorems": [
    "Hanja.C76_normalised_first",
    "Hanja.C76_no_hanja_left"
   ],
   "note": "Normal forms from the Unicode Character Database 14.0.0 (Spec/Unicode); on characters of CP949 normalisation acts character by character."
  },
  {
   "property": "C77",
   "status": "partial",
   "theorems": [
    "Hanja.C77_normal_form_partial",
    "Hanja.C77_exact_partial",
    "Hanja.C77_normal_form_fails"
   ],
   "note": "False of the code, as of every CP949 codec: U+212B, U+F92C and U+F9B8 normalise to characters that CP949 lacks (negation proved). Exact partials: these three become a question mark, everything else survives."
  },
  {
   "property": "C78",
   "status": "partial",
   "theorems": [
    "Cp949.C78_same",
    "Cp949.C78_survives_fails",
    "Cp949.C78_panics_iff_partial",
    "Cp949.C78_no_panic_partial",
    "Cp949.C78_decoded_prefix_partial"
   ],
   "note": "False of the code: a count that is too large or negative on a fresh reader panics (negation proved for all such sources). Partials: exactly when a call panics; what is delivered is decoded from what was handed over and not taken back, for all sources."
  },
  {
   "property": "C79",
   "status": "proved",
   "theorems": [
    "Props.C79_one_reading",
    "Props.C79_valid",
    "Props.C79_to",
    "Props.C79_convert",
    "Props.C79_word"
   ],
   "note": ""
  },
  {
   "property": "C80",
   "status": "partial",
   "theorems": [
    "Props.C80_same",
    "Props.C80_quadratic_partial",
    "Props.C80_whole_partial",
    "Props.C80_linear_fails",
    "Props.C80_no_factor_fails"
   ],
   "note": "False of the code: after each source read that ends inside a character everything received is translated again; n+1 times 가 cut that way costs (n+1)^2 + 2(n+1) bytes of translation (negation proved for all n, and that no factor suffices). Partials: never more than n(n+3)/2 for a stream of n bytes, and at most n if the source hands over whole characters."
  },
  {
   "property": "C81",
   "status": "proved",
   "theorems": [
    "Props.C81_to",
    "Props.C81_letters",
    "Props.C81_convert"
   ],
   "note": ""
  },
  {
   "property": "C82",
   "status": "partial",
   "theorems": [
    "Props.C82_exact_partial",
    "Props.C82_swallowed_fails",
    "Props.C82_assigned_partial",
    "Props.C82_kept_iff_partial"
   ],
   "note": "False of the code: a byte from 80 on followed by such a byte is decoded as one U+FFFD (negation proved for all such pairs in any surroundings; the WHATWG decoder would keep the ASCII byte). Exact partials: what is kept are the bytes standing alone; all is kept iff no second byte of a pair is such a byte, in particular in strings of assigned characters."
  },
  {
   "property": "C83",
   "status": "proved",
   "theorems": [
    "Props.C83_two",
    "Props.C83_one_is_not_enough"
   ],
   "note": ""
  },
  {
   "property": "C84",
   "status": "partial",
   "theorems": [
    "Props.C84_bounded_fails",
    "Props.C84_no_factor_fails",
    "Props.C84_stream_partial",
    "Props.C84_whole_partial"
   ],
   "note": "False of the code: if each source read ends inside a character, one Read with a buffer of two bytes collects the whole stream before it decodes anything (negation proved for all lengths, and that no factor suffices). Partials: at most twice the stream and the largest buffer together for every source; at most twice the largest buffer if the source hands over whole characters. The decoded bytes kept for later calls (cdata) are not counted."
  },
  {
   "property": "C85",
   "status": "proved",
   "theorems": [
    "Props.C85_as_alone",
    "Props.C85_only_the_buffer",
    "Props.C85_returns",
    "Props.C85_delivers"
   ],
   "note": "Calls are atomic here (interleavings within calls of From and To: C69). Each source and sink has its own state and keeps no reference to the buffers it is handed, as io.Reader and io.Writer demand."
  },
  {
   "property": "C86",
   "status": "partial",
   "theorems": [
    "Props.C86_whole_partial",
    "Props.C86_truncated_fails"
   ],
   "note": "False of the code for every stream that ends inside a character: ReadAll returns the text of a proper beginning and no error (negation proved for all of them). Partial: all other streams. io.ReadAll is modelled from memory of the published source of Go's standard library."
  },
  {
   "property": "C87",
   "status": "partial",
   "theorems": [
    "Props.C87_blocks_partial",
    "Props.C87_pieces_partial",
    "Props.C87_buffer_fails"
   ],
   "note": "False of the code: negation for every buffer of at least 3 bytes. Exact partials: the pieces, and for calls that fit the buffer: right iff no character has bytes on both sides of a multiple of the buffer size. bufio.Writer is modelled from memory of the published source of Go's standard library."
  },
  {
   "property": "C88",
   "status": "proved",
   "theorems": [
    "Props.C88_copies"
   ],
   "note": "io.Copy is modelled from memory of the published source of Go's standard library."
  },
  {
   "property": "C89",
   "status": "partial",
   "theorems": [
    "Props.C89_file_partial",
    "Props.C89_hangul_fails"
   ],
   "note": "False of the code: negation for every text of Hangul syllables longer than 32768 bytes. Exact partial: right iff no character has bytes on both sides of a multiple of 32768."
  },
  {
   "property": "C90",
   "status": "proved",
   "theorems": [
    "Props.C90_readers",
    "Props.C90_delivers",
    "Props.C90_writers",
    "Props.C90_conversions",
    "Props.C90_transforms",
    "Props.C90_transform_leaves",
    "Props.C90_no_panic",
    "Props.C90_panics",
    "Props.C90_reads_return",
    "Props.C90_stream_returns",
    "Props.C90_writes_return",
    "Props.C90_conversions_return",
    "Props.C90_transforms_return",
    "Props.C90_frame",
    "Props.C90_no_race"
   ],
   "note": "Sequentially consistent memory, which Go guarantees for programs without data races. Reading and writing the fields of a reader or writer is no step of its own, a source is asked in one step and then stores byte by byte, and a sink is handed its bytes in one step."
  },
  {
   "property": "C91",
   "status": "partial",
   "theorems": [
    "Props.C91_reports_fails",
    "Props.C91_reports_partial"
   ],
   "note": "False of the code: for every text with such a character there is no error and all is consumed. The documentation of x/text is quoted from memory."
  },
  {
   "property": "C92",
   "status": "partial",
   "theorems": [
    "Props.C92_same",
    "Props.C92_handlers_fails",
    "Props.C92_handlers_partial"
   ],
   "note": "False of the code for every text with such a character: the wrappers change nothing, as the encoder never reports an error. The loop of the wrappers is modelled from memory of the published source of x/text and has not been compared with it."
  },
  {
   "property": "C93",
   "status": "partial",
   "theorems": [
    "Props.C93_replaces_fails",
    "Props.C93_replaces_partial"
   ],
   "note": "False of the code exactly for sources that end inside a character: refused, with nothing converted. The documentation of x/text is quoted from memory."
  },
  {
   "property": "C94",
   "status": "proved",
   "theorems": [
    "Props.C94_letters_determine",
    "Props.C94_keys_determine",
    "Props.C94_conditions_needed",
    "Props.C94_prefix"
   ],
   "note": "Holds for both ways of splitting. C94_conditions_needed: it fails if leading consonants are split too (각가 and 가까), and with loose letters. C94_prefix says exactly when the letters of one text begin those of another."
  },
  {
   "property": "C95",
   "status": "partial",
   "theorems": [
    "Props.C95_goroutines_partial",
    "Props.C95_untouched_partial",
    "Props.C95_returns",
    "Props.C95_goroutines_fails"
   ],
   "note": "False of the code: SplitMultiElement returns the slice in the package's own table, so a goroutine that stores into its result races with every Stroke or SplitMultiElement of that letter in others (witness with a count that the table never had). Proved: no race and right answers if nobody stores into a result; right answers for the letters nobody stored into; every Stroke returns after at most 16 steps of its own in any case."
  },
  {
   "property": "C96",
   "status": "proved",
   "theorems": [
    "Props.C96_lines",
    "Props.C96_lines_of"
   ],
   "note": "bufio.Scanner and ScanLines are modelled from memory of the published source of Go 1.21 and have not been compared with it. Streams that end inside a character are left out: the reader drops the rest without an error (C42, C86)."
  },
  {
   "property": "C97",
   "status": "partial",
   "theorems": [
    "Props.C97_to",
    "Props.C97_from_fails",
    "Props.C97_from_partial",
    "Props.C97_from_iff_partial",
    "Props.C97_file_partial"
   ],
   "note": "Holds for To and Convert, for every byte string. False of From: the bytes B0 0A are read as one character that ends no line, while the line B0 is refused. Proved to hold exactly for the strings in which no line end (LF, or CR before LF or at the end) is the second byte of a pair, so for every encoded text."
  },
  {
   "property": "C98",
   "status": "partial",
   "theorems": [
    "Props.C98_prefix",
    "Props.C98_found",
    "Props.C98_search_fails",
    "Props.C98_aligned_partial",
    "Props.C98_search_partial"
   ],
   "note": "Prefixes: proved. False of searching and of suffixes, as of any encoding with two-byte characters: 걍가 encoded contains the bytes of 졀, and 걖A ends in those of 갂. Proved: nothing is missed; a match with a whole text before it is genuine; searches for something that begins with ASCII other than letters and '?' are exact."
  },
  {
   "property": "C99",
   "status": "proved",
   "theorems": [
    "Props.C99_width",
    "Props.C99_cut"
   ],
   "note": ""
  },
  {
   "property": "C100",
   "status": "proved",
   "theorems": [
    "Props.C100_parse",
    "Props.C100_decode",
    "Props.C100_letters_needed"
   ],
   "note": ""
  },
  {
   "property": "C101",
   "status": "partial",
   "theorems": [
    "Props.C101_case_fails",
    "Props.C101_case_partial",
    "Props.C101_euckr_partial"
   ],
   "note": "False of the code, as of every CP949 codec: 갂 (81 41) made lower-case is 갵 (81 61). Exactly the texts without a letter of the other case as a second byte are treated right, so all EUC-KR texts."
  },
  {
   "property": "C102",
   "status": "proved",
   "theorems": [
    "Props.C102_runes"
   ],
   "note": "bufio.Reader and its ReadRune are modelled from memory of the published source of Go 1.21 and have not been compared with it. Streams that end inside a character are left out: the Reader drops the rest without an error (C42)."
  },
  {
   "property": "C103",
   "status": "partial",
   "theorems": [
    "Props.C103_one_stream",
    "Props.C103_error",
    "Props.C103_files_fails",
    "Props.C103_files_partial",
    "Props.C103_readers_partial",
    "Props.C103_iff_partial"
   ],
   "note": "False of a file, other than the last, that ends inside a character: the Reader over the MultiReader makes one character of its last byte and the first of the next file. Proved for files that decode, either way round, and for files that end in an error; two files that together decode are read as they are alone if and only if the first does not end inside a character. io.MultiReader is modelled from memory of the published source of Go 1.21."
  },
  {
   "property": "C104",
   "status": "proved",
   "theorems": [
    "Props.C104_blocks",
    "Props.C104_blocks_unique"
   ],
   "note": "io.ReadFull and io.ReadAtLeast are modelled from memory of the published source of Go 1.21 and have not been compared with it. Streams that end inside a character are left out (C42)."
  },
  {
   "property": "C105",
   "status": "partial",
   "theorems": [
    "Props.C105_limit",
    "Props.C105_sections_fails",
    "Props.C105_sections_iff_partial"
   ],
   "note": "False of cuts inside a character. Proved: the claim holds if and only if the cut is not inside a character; io.LimitReader, modelled from memory of the published source of Go 1.21, delivers the first n bytes and then io.EOF."
  },
  {
   "property": "C106",
   "status": "proved",
   "theorems": [
    "Props.C106_always",
    "Props.C106_ends",
    "Props.C106_ended",
    "Props.C106_texts"
   ],
   "note": "io.Pipe is modelled from memory of the published source of Go 1.21 and has not been compared with it. Each exchange of bytes between the goroutines is one step. It matters that the Writer never passes on an empty piece: an empty write made to the pipe directly would be taken for the end (C44)."
  },
  {
   "property": "C107",
   "status": "partial",
   "theorems": [
    "Props.C107_resume_fails",
    "Props.C107_resume_iff_partial"
   ],
   "note": "False of a sink that takes something before it fails: Write returns 0, whatever the sink has taken, and so the caller repeats it. Proved: exactly what the sink has taken in the end; it is the encoded text once if and only if the calls that failed had taken nothing."
  },
  {
   "property": "C108",
   "status": "partial",
   "theorems": [
    "Props.C108_same_reader_fails",
    "Props.C108_new_reader_iff_partial"
   ],
   "note": "False: the Reader keeps the error and never asks the source again (C43). Proved: a new Reader over the same source goes on, if and only if the first part does not end inside a character."
  },
  {
   "property": "C109",
   "status": "proved",
   "theorems": [
    "Props.C109_end",
    "Props.C109_after_ascii",
    "Props.C109_split",
    "Props.C109_delete_last",
    "Props.C109_no_bound"
   ],
   "note": ""
  },
  {
   "property": "C110",
   "status": "partial",
   "theorems": [
    "Props.C110_pieces_iff_partial",
    "Props.C110_reader_iff_partial",
    "Props.C110_reader_fails"
   ],
   "note": "False: Read ends its deliveries inside characters, and Convert makes U+FFFD of each byte of a cut character; with a buffer of 512 or 32768 bytes even a text without hanja is damaged. Proved: exactly what comes out, and that it is right if and only if no character is cut by the end of a delivery."
  },
  {
   "property": "C111",
   "status": "partial",
   "theorems": [
    "Props.C111_roundtrip_iff",
    "Props.C111_line_end_fails",
    "Props.C111_error_parity_partial",
    "Props.C111_both_fails"
   ],
   "note": "False: the error of From tells only the parity of the last bytes from 0x80, and nothing if the last byte is ASCII. Comparing To(From(b)) with b tells exactly whether b is an encoding; but there are UTF-8 texts of any length that are CP949 encodings of another text too."
  },
  {
   "property": "C112",
   "status": "partial",
   "theorems": [
    "Props.C112_any_rune_partial",
    "Props.C112_any_rune_fails",
    "Props.C112_syllable",
    "Props.C112_search",
    "Props.C112_together"
   ],
   "note": "False for code points in general: SplitCompat also gives ㄱ for the 587 code points before the syllables, and an initial for some code points beyond U+10000. Exactly which is proved; for syllables the property holds, and what follows for searching and sorting is proved."
  },
  {
   "property": "C113",
   "status": "proved",
   "theorems": [
    "Props.C113_encode",
    "Props.C113_decode",
    "Props.C113_conditions_needed"
   ],
   "note": ""
  },
  {
   "property": "C114",
   "status": "partial",
   "theorems": [
    "Props.C114_decode_iff_partial",
    "Props.C114_decode_fails",
    "Props.C114_encode"
   ],
   "note": "False for exactly three pairs: A1 A1 (ideographic space), A1 A9 (soft hyphen) and A4 D4 (Hangul filler). Proved: a character that is not seen comes up exactly if one of them stands where a character begins; the direction of To holds apart from them."
  },
  {
   "property": "C115",
   "status": "partial",
   "theorems": [
    "Hanja.C115_law_iff_partial",
    "Hanja.C115_law_fails"
   ],
   "note": "False: 女子 becomes 녀자 (written 여자), 異 becomes 리 (이). Proved: exactly when a text over CP949 is converted to one that breaks the law, by the positions of the first hanja of its words in KS X 1001."
  },
  {
   "property": "C116",
   "status": "proved",
   "theorems": [
    "Props.C116_parts",
    "Props.C116_parts_of",
    "Props.C116_condition_needed"
   ],
   "note": ""
  },
  {
   "property": "C117",
   "status": "partial",
   "theorems": [
    "Props.C117_replaced_one",
    "Props.C117_replace_fails",
    "Props.C117_aligned_partial",
    "Props.C117_meta_partial"
   ],
   "note": "False: replacing 졀 in the encoding of 걍가, where it does not occur, damages the text. Proved: it holds if every match begins between two characters, and if what is replaced begins with an ASCII character that is neither a letter nor '?'."
  },
  {
   "property": "C118",
   "status": "partial",
   "theorems": [
    "Props.C118_exact",
    "Props.C118_reader_partial",
    "Props.C118_unchanged_iff_partial",
    "Props.C118_file_fails",
    "Props.C118_long_panics",
    "Props.C118_binary_fails"
   ],
   "note": "False of the code: a file of 1366 to 2730 syllables gets four bytes too many (the first 4096 bytes end inside a syllable), a first chunk of 2049 bytes that are not UTF-8 panics. Proved: chunks of whole characters are encoded right whatever their sizes; for any chunks that do not become longer than 4096 bytes, exactly what is delivered, and that it is right iff no character is cut. Over an environment model of golang.org/x/text."
  },
  {
   "property": "C119",
   "status": "partial",
   "theorems": [
    "Props.C119_exact",
    "Props.C119_writer_partial",
    "Props.C119_bytes_fails",
    "Props.C119_writer_fails"
   ],
   "note": "False of the code: a piece that ends inside a character is refused, so of a text written byte by byte only ASCII arrives; writing 1366 syllables at once panics. Proved: the outcome of every Write, and that pieces of whole characters with at most 4096 converted bytes arrive right. Over an environment model of golang.org/x/text."
  },
  {
   "property": "C120",
   "status": "partial",
   "theorems": [
    "Props.C120_lines_partial",
    "Props.C120_never_told_fails",
    "Props.C120_all_lost_fails",
    "Props.C120_readString_partial",
    "Props.C120_readString_lost_fails"
   ],
   "note": "False of the code: Err() is never anything but nil (or ErrTooLong) if the source ends with io.EOF, and of a file of at most 4096 bytes that ends inside a character, read at once, no line at all is given. The same with ReadString, which ends with io.EOF. Proved of both: the lines given are always those of From of a beginning of the data, the rest being nothing or a piece that ends inside a character."
  },
  {
   "property": "C121",
   "status": "partial",
   "theorems": [
    "Hangul.C121_longer_iff_partial",
    "Hangul.C121_longer_fails"
   ],
   "note": "False of the code exactly for words that end in ㄹ and x not empty: hangul.go:99 compares the postposition with == \"으로\", so 서울 gets 으로부터. Proved: the law holds in every other case, for every byte string."
  },
  {
   "property": "C122",
   "status": "proved",
   "theorems": [
    "Hangul.C122_move",
    "Hangul.C122_compat_needed"
   ],
   "note": ""
  },
  {
   "property": "C123",
   "status": "partial",
   "theorems": [
    "Props.C123_report_partial",
    "Props.C123_cut_fails",
    "Props.C123_all_lost_fails"
   ],
   "note": "False of streams that are cut inside a character: io.Copy returns nil, having copied a beginning of the text only; of a file of up to 32768 bytes read at once it copies nothing and returns (0, nil). Proved for all other streams, for every destination. Over an environment model of io.Copy."
  }
 ]
}
