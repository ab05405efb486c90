Hangul.C01_split_join	propext, Classical.choice, Quot.sound
Hangul.C02_join_split	propext, Classical.choice, Quot.sound
Hangul.C02_join_injective	propext, Classical.choice, Quot.sound
Hangul.C03_join_total	propext, Classical.choice, Quot.sound
Hangul.C04_join_rejects_bad_tail_fails	propext, Quot.sound
Hangul.C04_join_bad_tail_partial	propext, Classical.choice, Quot.sound
Hangul.C05_split_unicode	propext, Classical.choice, Quot.sound
Hangul.C05_split_injective	propext, Classical.choice, Quot.sound
Hangul.C06_join_split_detects	propext, Classical.choice, Quot.sound
Hangul.C07_splitCompat	propext, Classical.choice, Quot.sound
Hangul.C08_conjoining_roundtrip	propext, Quot.sound
Hangul.C09_compat_roundtrip	propext, Classical.choice, Quot.sound
Hangul.C09_zero	none
Hangul.C10_classifiers	propext, Classical.choice, Quot.sound
Hangul.C11_conversions	propext, Classical.choice, Quot.sound
Hangul.C11_lead_tail_domain	propext, Classical.choice, Quot.sound
Hangul.C12_domain	propext, Classical.choice, Quot.sound
Hangul.C12_elements	propext, Classical.choice, Quot.sound
Hangul.C12_spelling	propext, Classical.choice, Quot.sound
Hangul.C13_fully_split_fails	propext
Hangul.C13_fully_split_partial	propext, Classical.choice, Quot.sound
Hangul.C14_history_independent_fails	propext
Hangul.C14_split_partial	propext
Hangul.C14_history_independent_partial	propext
Hangul.C14_stroke_partial	propext, Classical.choice, Quot.sound
Hangul.C14_shape_partial	propext
Hangul.C14_stored_partial	propext, Classical.choice, Quot.sound
Hangul.C14_sum_partial	propext, Classical.choice, Quot.sound
Hangul.C15_stroke_syllable	propext, Classical.choice, Quot.sound
Hangul.C15_stroke_spelling	propext, Classical.choice, Quot.sound
Hangul.C15_stroke_same_letter	propext, Classical.choice, Quot.sound
Hangul.C16_stroke_positive	propext, Classical.choice, Quot.sound
Hangul.C17_stroke_additive_fails	propext
Hangul.C17_stroke_additive_partial	propext, Classical.choice, Quot.sound
Hangul.C17_stroke_letters_partial	propext, Classical.choice, Quot.sound
Hangul.C18_last_consonant	propext, Classical.choice, Quot.sound
Hangul.C18_every_syllable	propext, Quot.sound
Hangul.C18_empty	propext
Hangul.C19_zero_otherwise_fails	propext
Hangul.C19_zero_partial	propext, Classical.choice, Quot.sound
Hangul.C20_ends_with_consonant	propext, Classical.choice, Quot.sound
Hangul.C20_iff	propext
Hangul.C21_shape	propext
Hangul.C21_choice	propext, Classical.choice, Quot.sound
Hangul.C21_empty	propext
Hangul.C21_by_last_consonant	propext
Hanja.C22_isHanja	propext, Classical.choice, Quot.sound
Hanja.C23_reading_syllable	propext, Classical.choice, Quot.sound
Hanja.C23_all_runes	propext, Classical.choice, Quot.sound
Hanja.C24_rune_by_rune	propext, Classical.choice, Quot.sound
Hanja.C24_rune_count	propext, Classical.choice, Quot.sound
Hanja.C24_byte_count	propext, Classical.choice, Quot.sound
Hanja.C25_idempotent	propext, Classical.choice, Quot.sound
Hanja.C26_untouched_fails	propext, Classical.choice, Quot.sound
Hanja.C26_untouched_partial	propext, Classical.choice, Quot.sound
Hanja.C27_concat	propext, Classical.choice, Quot.sound
Hanja.C27_concat_boundary	propext, Classical.choice, Quot.sound
Hanja.C27_condition_needed	propext, Classical.choice, Quot.sound
Cp949.C28_roundtrip_unicode	propext, Classical.choice, Quot.sound
Cp949.C28_repertoire	propext, Classical.choice, Quot.sound
Cp949.C29_roundtrip_cp949	propext, Classical.choice, Quot.sound
Cp949.C29_unique	propext, Classical.choice, Quot.sound
Cp949.C30_error_iff	propext, Classical.choice, Quot.sound
Cp949.C31_decodes	propext, Classical.choice, Quot.sound
Cp949.C31_valid	propext, Classical.choice, Quot.sound
Cp949.C32_concat	propext, Classical.choice, Quot.sound
Cp949.C33_concat	propext, Classical.choice, Quot.sound
Cp949.C33_concat_boundary	propext, Classical.choice, Quot.sound
Cp949.C34_ascii	propext, Classical.choice, Quot.sound
Cp949.C34_ascii_inside	propext, Classical.choice, Quot.sound
Cp949.C35_inverse	propext, Classical.choice, Quot.sound
Cp949.C35_codes	propext, Classical.choice, Quot.sound
Cp949.C35_complete	propext, Classical.choice, Quot.sound
Cp949.C36_total	propext, Classical.choice, Quot.sound
Cp949.C37_one_question_mark_fails	propext, Classical.choice, Quot.sound
Cp949.C37_one_question_mark_partial	propext, Classical.choice, Quot.sound
Cp949.C37_exact	propext, Classical.choice, Quot.sound
Cp949.C38_no_wrong_character_fails	propext, Classical.choice, Quot.sound
Cp949.C38_no_wrong_character_partial	propext, Classical.choice, Quot.sound
Cp949.C38_affected_partial	propext, Classical.choice, Quot.sound
Props.C39_deterministic	propext, Quot.sound
Props.C39_delivers	propext, Classical.choice, Quot.sound
Props.C39_every_chunking	propext, Quot.sound
Props.C39_any_caller	propext, Classical.choice, Quot.sound
Props.C40_chunking_fails	propext, Quot.sound
Props.C40_chunking_partial	propext, Classical.choice, Quot.sound
Props.C40_any_stream_partial	propext, Classical.choice, Quot.sound
Props.C40_exact_partial	propext, Classical.choice, Quot.sound
Props.C41_decoded_prefix	propext, Classical.choice, Quot.sound
Props.C41_nothing_lost	propext, Classical.choice, Quot.sound
Props.C42_all_lost_fails	propext, Classical.choice, Quot.sound
Props.C42_truncated_fails	propext, Classical.choice, Quot.sound
Props.C42_never_reported_fails	propext, Classical.choice, Quot.sound
Props.C42_truncated_partial	propext, Classical.choice, Quot.sound
Props.C43_contract	propext, Quot.sound
Props.C43_error_is_final	propext, Quot.sound
Props.C43_no_panic	propext, Quot.sound
Props.C44_empty_buffer_fails	propext, Quot.sound
Props.C44_empty_read_fails	propext, Classical.choice, Quot.sound
Props.C44_empty_buffer_partial	propext, Quot.sound
Props.C44_empty_source_read_exact	propext, Quot.sound
Props.C44_later_empty_buffer_fails	propext, Classical.choice, Quot.sound
Props.C44_empty_buffer_fetch_partial	propext, Classical.choice, Quot.sound
Props.C45_terminates_fails	propext, Classical.choice, Quot.sound
Props.C45_withheld_fails	propext, Quot.sound
Props.C45_finite_partial	propext, Classical.choice, Quot.sound
Props.C45_prompt_partial	propext, Classical.choice, Quot.sound
Props.C45_running_partial	propext, Classical.choice, Quot.sound
Props.C46_forwards	propext, Classical.choice, Quot.sound
Props.C46_encodes	propext, Classical.choice, Quot.sound
Props.C46_deterministic	propext, Quot.sound
Props.C47_cut_exact	propext, Classical.choice, Quot.sound
Props.C47_unchanged_iff_partial	propext, Classical.choice, Quot.sound
Props.C47_split_fails	propext, Classical.choice, Quot.sound
Props.C47_split_partial	propext, Classical.choice, Quot.sound
Props.C47_exact	propext, Classical.choice, Quot.sound
Props.C48_reports	propext, Classical.choice, Quot.sound
Props.C48_one_call_each	propext, Classical.choice, Quot.sound
Props.C49_destination_fails	propext, Classical.choice, Quot.sound
Props.C49_destination_partial	propext, Classical.choice, Quot.sound
Props.C50_decoder	propext, Classical.choice, Quot.sound
Props.C50_encoder	propext, Classical.choice, Quot.sound
Props.C50_room	propext, Classical.choice, Quot.sound
Props.C51_decoder_iff_partial	propext, Classical.choice, Quot.sound
Props.C51_encoder_iff_partial	propext, Classical.choice, Quot.sound
Props.C51_pieces_fails	propext, Classical.choice, Quot.sound
Props.C51_pieces_partial	propext, Classical.choice, Quot.sound
Props.C52_growth	propext, Classical.choice, Quot.sound
Props.C52_append_rune	propext, Quot.sound
Props.C52_ensure_cap	propext, Quot.sound
Props.C52_grow_terminates	propext, Quot.sound
Props.C53_from	propext, Classical.choice, Quot.sound
Props.C53_to	propext, Classical.choice, Quot.sound
Props.C53_apart	propext, Quot.sound
Props.C54_same_as_copies	propext, Classical.choice, Quot.sound
Props.C54_next_call	propext, Classical.choice, Quot.sound
Props.C54_delivers	propext, Classical.choice, Quot.sound
Props.C55_same_as_copies	propext, Classical.choice, Quot.sound
Props.C55_next_call	propext, Classical.choice, Quot.sound
Props.C56_decoder	propext, Classical.choice, Quot.sound
Props.C56_encoder	propext, Classical.choice, Quot.sound
Cp949.C57_areas	propext, Classical.choice, Quot.sound
Cp949.C57_syllables	propext, Classical.choice, Quot.sound
Cp949.C57_order	propext, Classical.choice, Quot.sound
Cp949.C58_sort_order	propext, Classical.choice, Quot.sound
Cp949.C58_extension_differs	propext, Classical.choice, Quot.sound
Cp949.C59_rows	propext, Classical.choice, Quot.sound
Hanja.C60_no_hanja_left_fails	propext, Classical.choice, Quot.sound
Hanja.C60_no_hanja_left_partial	propext, Classical.choice, Quot.sound
Hanja.C60_area_partial	propext, Classical.choice, Quot.sound
Hanja.C60_outside	propext, Classical.choice, Quot.sound
Hanja.C61_reading_order_fails	propext, Classical.choice, Quot.sound
Hanja.C61_reading_order_partial	propext, Classical.choice, Quot.sound
Hanja.C61_exceptions_needed	propext, Classical.choice, Quot.sound
Hanja.C62_width	propext, Classical.choice, Quot.sound
Hanja.C62_needs_repertoire	propext, Classical.choice, Quot.sound
Hanja.C63_eucKr	propext, Classical.choice, Quot.sound
Hanja.C63_eucKr_bytes	propext, Classical.choice, Quot.sound
Props.C64_write_read	propext, Classical.choice, Quot.sound
Props.C65_copy_iff_partial	propext, Classical.choice, Quot.sound
Props.C65_copy_partial	propext, Classical.choice, Quot.sound
Props.C65_copy_fails	propext, Classical.choice, Quot.sound
Props.C66_decoder_bytes_partial	propext, Classical.choice, Quot.sound
Props.C66_decoder_bytes_fails	propext, Classical.choice, Quot.sound
Props.C66_encoder_bytes_exact	propext, Classical.choice, Quot.sound
Props.C66_encoder_bytes_partial	propext, Classical.choice, Quot.sound
Props.C66_encoder_bytes_fails	propext, Classical.choice, Quot.sound
Props.C67_deterministic	propext, Quot.sound
Props.C67_reader_partial	propext, Classical.choice, Quot.sound
Props.C67_long_panics	propext, Classical.choice, Quot.sound
Props.C67_reader_fails	propext, Classical.choice, Quot.sound
Props.C67_split_fails	propext, Classical.choice, Quot.sound
Props.C68_exact	propext, Classical.choice, Quot.sound
Props.C68_writer_partial	propext, Classical.choice, Quot.sound
Props.C68_writer_fails	propext, Classical.choice, Quot.sound
Props.C69_result	propext, Classical.choice, Quot.sound
Props.C69_no_panic	propext, Classical.choice, Quot.sound
Props.C69_returns	propext, Classical.choice, Quot.sound
Props.C69_frame	propext, Classical.choice, Quot.sound
Props.C69_no_race	propext, Classical.choice, Quot.sound
Props.C69_argument	propext, Classical.choice, Quot.sound
Props.C70_linear	propext, Classical.choice, Quot.sound
Props.C70_lookup_from	propext, Classical.choice, Quot.sound
Props.C70_lookup_to	propext, Classical.choice, Quot.sound
Props.C71_decomposed_fails	propext
Props.C71_open_partial	propext, Classical.choice, Quot.sound
Props.C71_closed_partial	propext, Classical.choice, Quot.sound
Props.C71_agree_closed	propext, Classical.choice, Quot.sound
Props.C72_order	propext, Classical.choice, Quot.sound
Props.C72_letters	propext, Classical.choice, Quot.sound
Props.C73_hanja_fails	propext, Classical.choice, Quot.sound
Props.C73_direct_partial	propext, Classical.choice, Quot.sound
Props.C73_converted_partial	propext, Classical.choice, Quot.sound
Props.C73_reading	propext, Classical.choice, Quot.sound
Props.C74_decoder_partial	propext, Classical.choice, Quot.sound
Props.C74_decoder_short_partial	propext, Classical.choice, Quot.sound
Props.C74_decoder_fails	propext, Classical.choice, Quot.sound
Props.C74_encoder_partial	propext, Classical.choice, Quot.sound
Props.C74_encoder_short_partial	propext, Classical.choice, Quot.sound
Props.C74_encoder_fails	propext, Classical.choice, Quot.sound
Props.C75_constants	propext, Quot.sound
Props.C75_compat	propext, Classical.choice, Quot.sound
Props.C75_conjoining	propext, Classical.choice, Quot.sound
Props.C75_elements	propext, Classical.choice, Quot.sound
Hanja.C76_normalised_first	propext, Classical.choice, Quot.sound
Hanja.C76_no_hanja_left	propext, Classical.choice, Quot.sound
Hanja.C77_normal_form_partial	propext, Classical.choice, Quot.sound
Hanja.C77_exact_partial	propext, Classical.choice, Quot.sound
Hanja.C77_normal_form_fails	propext, Classical.choice, Quot.sound
Cp949.C78_same	propext, Classical.choice, Quot.sound
Cp949.C78_survives_fails	propext, Classical.choice, Quot.sound
Cp949.C78_panics_iff_partial	propext, Classical.choice, Quot.sound
Cp949.C78_no_panic_partial	propext, Quot.sound
Cp949.C78_decoded_prefix_partial	propext, Classical.choice, Quot.sound
Props.C79_one_reading	propext, Classical.choice, Quot.sound
Props.C79_valid	propext, Quot.sound
Props.C79_to	propext, Classical.choice, Quot.sound
Props.C79_convert	propext, Classical.choice, Quot.sound
Props.C79_word	propext, Classical.choice, Quot.sound
Props.C80_same	propext, Quot.sound
Props.C80_quadratic_partial	propext, Classical.choice, Quot.sound
Props.C80_whole_partial	propext, Classical.choice, Quot.sound
Props.C80_linear_fails	propext, Classical.choice, Quot.sound
Props.C80_no_factor_fails	propext, Classical.choice, Quot.sound
Props.C81_to	propext, Classical.choice, Quot.sound
Props.C81_letters	propext, Classical.choice, Quot.sound
Props.C81_convert	propext, Classical.choice, Quot.sound
Props.C82_exact_partial	propext, Classical.choice, Quot.sound
Props.C82_swallowed_fails	propext, Classical.choice, Quot.sound
Props.C82_assigned_partial	propext, Classical.choice, Quot.sound
Props.C82_kept_iff_partial	propext, Classical.choice, Quot.sound
Props.C83_two	propext, Classical.choice, Quot.sound
Props.C83_one_is_not_enough	propext, Classical.choice, Quot.sound
Props.C84_bounded_fails	propext, Classical.choice, Quot.sound
Props.C84_no_factor_fails	propext, Classical.choice, Quot.sound
Props.C84_stream_partial	propext, Quot.sound
Props.C84_whole_partial	propext, Classical.choice, Quot.sound
Props.C85_as_alone	propext, Classical.choice, Quot.sound
Props.C85_only_the_buffer	propext, Classical.choice, Quot.sound
Props.C85_returns	propext, Classical.choice, Quot.sound
Props.C85_delivers	propext, Classical.choice, Quot.sound
Props.C86_whole_partial	propext, Classical.choice, Quot.sound
Props.C86_truncated_fails	propext, Classical.choice, Quot.sound
Props.C87_blocks_partial	propext, Classical.choice, Quot.sound
Props.C87_pieces_partial	propext, Classical.choice, Quot.sound
Props.C87_buffer_fails	propext, Classical.choice, Quot.sound
Props.C88_copies	propext, Classical.choice, Quot.sound
Props.C89_file_partial	propext, Classical.choice, Quot.sound
Props.C89_hangul_fails	propext, Classical.choice, Quot.sound
Props.C90_readers	propext, Classical.choice, Quot.sound
Props.C90_delivers	propext, Classical.choice, Quot.sound
Props.C90_writers	propext, Classical.choice, Quot.sound
Props.C90_conversions	propext, Classical.choice, Quot.sound
Props.C90_transforms	propext, Classical.choice, Quot.sound
Props.C90_transform_leaves	propext, Classical.choice, Quot.sound
Props.C90_no_panic	propext, Classical.choice, Quot.sound
Props.C90_panics	propext, Classical.choice, Quot.sound
Props.C90_reads_return	propext, Classical.choice, Quot.sound
Props.C90_stream_returns	propext, Classical.choice, Quot.sound
Props.C90_writes_return	propext, Classical.choice, Quot.sound
Props.C90_conversions_return	propext, Classical.choice, Quot.sound
Props.C90_transforms_return	propext, Classical.choice, Quot.sound
Props.C90_frame	propext, Classical.choice, Quot.sound
Props.C90_no_race	propext, Classical.choice, Quot.sound
Props.C91_reports_fails	propext, Classical.choice, Quot.sound
Props.C91_reports_partial	propext, Classical.choice, Quot.sound
Props.C92_same	propext, Classical.choice, Quot.sound
Props.C92_handlers_fails	propext, Classical.choice, Quot.sound
Props.C92_handlers_partial	propext, Classical.choice, Quot.sound
Props.C93_replaces_fails	propext, Classical.choice, Quot.sound
Props.C93_replaces_partial	propext, Classical.choice, Quot.sound
Props.C94_letters_determine	propext, Classical.choice, Quot.sound
Props.C94_keys_determine	propext, Classical.choice, Quot.sound
Props.C94_conditions_needed	propext
Props.C94_prefix	propext, Classical.choice, Quot.sound
Props.C95_goroutines_partial	propext, Classical.choice, Quot.sound
Props.C95_untouched_partial	propext, Classical.choice, Quot.sound
Props.C95_returns	propext, Classical.choice, Quot.sound
Props.C95_goroutines_fails	propext, Quot.sound
Props.C96_lines	propext, Classical.choice, Quot.sound
Props.C96_lines_of	propext, Quot.sound
Props.C97_to	propext, Classical.choice, Quot.sound
Props.C97_from_fails	propext, Classical.choice, Quot.sound
Props.C97_from_partial	propext, Classical.choice, Quot.sound
Props.C97_from_iff_partial	propext, Classical.choice, Quot.sound
Props.C97_file_partial	propext, Classical.choice, Quot.sound
Props.C98_prefix	propext, Classical.choice, Quot.sound
Props.C98_found	propext, Classical.choice, Quot.sound
Props.C98_search_fails	propext, Classical.choice, Quot.sound
Props.C98_aligned_partial	propext, Classical.choice, Quot.sound
Props.C98_search_partial	propext, Classical.choice, Quot.sound
Props.C99_width	propext, Classical.choice, Quot.sound
Props.C99_cut	propext, Classical.choice, Quot.sound
Props.C100_parse	propext, Classical.choice, Quot.sound
Props.C100_decode	propext, Classical.choice, Quot.sound
Props.C100_letters_needed	propext, Classical.choice, Quot.sound
Props.C101_case_fails	propext, Classical.choice, Quot.sound
Props.C101_case_partial	propext, Classical.choice, Quot.sound
Props.C101_euckr_partial	propext, Classical.choice, Quot.sound
Props.C102_runes	propext, Classical.choice, Quot.sound
Props.C103_one_stream	propext, Quot.sound
Props.C103_error	propext, Quot.sound
Props.C103_files_fails	propext, Quot.sound
Props.C103_files_partial	propext, Classical.choice, Quot.sound
Props.C103_readers_partial	propext, Classical.choice, Quot.sound
Props.C103_iff_partial	propext, Classical.choice, Quot.sound
Props.C104_blocks	propext, Classical.choice, Quot.sound
Props.C104_blocks_unique	propext, Quot.sound
Props.C105_limit	propext, Classical.choice, Quot.sound
Props.C105_sections_fails	propext, Quot.sound
Props.C105_sections_iff_partial	propext, Classical.choice, Quot.sound
Props.C106_always	propext, Classical.choice, Quot.sound
Props.C106_ends	propext, Classical.choice, Quot.sound
Props.C106_ended	propext, Classical.choice, Quot.sound
Props.C106_texts	propext, Classical.choice, Quot.sound
Props.C107_resume_fails	propext, Classical.choice, Quot.sound
Props.C107_resume_iff_partial	propext, Classical.choice, Quot.sound
Props.C108_same_reader_fails	propext, Quot.sound
Props.C108_new_reader_iff_partial	propext, Classical.choice, Quot.sound
Props.C109_end	propext, Classical.choice, Quot.sound
Props.C109_after_ascii	propext, Classical.choice, Quot.sound
Props.C109_split	propext, Classical.choice, Quot.sound
Props.C109_delete_last	propext, Classical.choice, Quot.sound
Props.C109_no_bound	propext, Classical.choice, Quot.sound
Props.C110_pieces_iff_partial	propext, Classical.choice, Quot.sound
Props.C110_reader_iff_partial	propext, Classical.choice, Quot.sound
Props.C110_reader_fails	propext, Classical.choice, Quot.sound
Props.C111_roundtrip_iff	propext, Classical.choice, Quot.sound
Props.C111_line_end_fails	propext, Classical.choice, Quot.sound
Props.C111_error_parity_partial	propext, Classical.choice, Quot.sound
Props.C111_both_fails	propext, Classical.choice, Quot.sound
Props.C112_any_rune_partial	propext, Classical.choice, Quot.sound
Props.C112_any_rune_fails	propext
Props.C112_syllable	propext, Classical.choice, Quot.sound
Props.C112_search	propext, Classical.choice, Quot.sound
Props.C112_together	propext, Classical.choice, Quot.sound
Props.C113_encode	propext, Classical.choice, Quot.sound
Props.C113_decode	propext, Classical.choice, Quot.sound
Props.C113_conditions_needed	propext, Classical.choice, Quot.sound
Props.C114_decode_iff_partial	propext, Classical.choice, Quot.sound
Props.C114_decode_fails	propext, Classical.choice, Quot.sound
Props.C114_encode	propext, Classical.choice, Quot.sound
Hanja.C115_law_iff_partial	propext, Classical.choice, Quot.sound
Hanja.C115_law_fails	propext, Classical.choice, Quot.sound
Props.C116_parts	propext, Classical.choice, Quot.sound
Props.C116_parts_of	propext, Classical.choice, Quot.sound
Props.C116_condition_needed	propext, Classical.choice, Quot.sound
Props.C117_replaced_one	propext, Classical.choice, Quot.sound
Props.C117_replace_fails	propext, Classical.choice, Quot.sound
Props.C117_aligned_partial	propext, Classical.choice, Quot.sound
Props.C117_meta_partial	propext, Classical.choice, Quot.sound
Props.C118_exact	propext, Classical.choice, Quot.sound
Props.C118_reader_partial	propext, Classical.choice, Quot.sound
Props.C118_unchanged_iff_partial	propext, Classical.choice, Quot.sound
Props.C118_file_fails	propext, Classical.choice, Quot.sound
Props.C118_long_panics	propext, Classical.choice, Quot.sound
Props.C118_binary_fails	propext, Classical.choice, Quot.sound
Props.C119_exact	propext, Classical.choice, Quot.sound
Props.C119_writer_partial	propext, Classical.choice, Quot.sound
Props.C119_bytes_fails	propext, Classical.choice, Quot.sound
Props.C119_writer_fails	propext, Classical.choice, Quot.sound
Props.C120_lines_partial	propext, Classical.choice, Quot.sound
Props.C120_never_told_fails	propext, Classical.choice, Quot.sound
Props.C120_all_lost_fails	propext, Classical.choice, Quot.sound
Props.C120_readString_partial	propext, Classical.choice, Quot.sound
Props.C120_readString_lost_fails	propext, Classical.choice, Quot.sound
Hangul.C121_longer_iff_partial	propext, Quot.sound
Hangul.C121_longer_fails	propext, Classical.choice, Quot.sound
Hangul.C122_move	propext, Classical.choice, Quot.sound
Hangul.C122_compat_needed	propext, Classical.choice, Quot.sound
Props.C123_report_partial	propext, Classical.choice, Quot.sound
Props.C123_cut_fails	propext, Classical.choice, Quot.sound
Props.C123_all_lost_fails	propext, Classical.choice, Quot.sound
