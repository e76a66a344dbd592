{
 "claims": [
  {
   "property": "C01",
   "status": "proved",
   "theorems": [
    "Scribbu.Props.C01_sync_safe_encode_decode",
    "Scribbu.Props.C01_sync_safe_decode_encode"
   ],
   "note": "Proved in full."
  },
  {
   "property": "C02",
   "status": "proved",
   "theorems": [
    "Scribbu.Props.C02_sync_safe_decoders",
    "Scribbu.Props.C02_big_endian_decoders",
    "Scribbu.Props.C02_big_endian_injective",
    "Scribbu.Props.C02_big_endian_injective3"
   ],
   "note": "Proved in full."
  },
  {
   "property": "C03",
   "status": "proved",
   "theorems": [
    "Scribbu.Props.C03_resync_unsync"
   ],
   "note": "Proved in full."
  },
  {
   "property": "C04",
   "status": "proved",
   "theorems": [
    "Scribbu.Props.C04_no_false_sync",
    "Scribbu.Props.C04_not_trailing_ff"
   ],
   "note": "Proved in full."
  },
  {
   "property": "C05",
   "status": "proved",
   "theorems": [
    "Scribbu.Props.C05_resynchronise_exact"
   ],
   "note": "Proved in full."
  },
  {
   "property": "C06",
   "status": "partial",
   "theorems": [
    "Scribbu.Props.C06_refuted",
    "Scribbu.Props.C06_count_partial",
    "Scribbu.Props.C06_unchanged_iff_partial"
   ],
   "note": "The full claim is false of the code as it stands; refuted by C06_refuted. What does hold: C06_count_partial, C06_unchanged_iff_partial."
  },
  {
   "property": "C07",
   "status": "proved",
   "theorems": [
    "Scribbu.Props.C07_looking_at_id3v2"
   ],
   "note": "Proved in full."
  },
  {
   "property": "C08",
   "status": "partial",
   "theorems": [
    "Scribbu.Props.C08_lossless",
    "Scribbu.Props.C08_refuted",
    "Scribbu.Props.C08_complete_partial"
   ],
   "note": "The full claim is false of the code as it stands; refuted by C08_refuted. What does hold: C08_lossless, C08_complete_partial."
  },
  {
   "property": "C09",
   "status": "partial",
   "theorems": [
    "Scribbu.Props.C09_refuted",
    "Scribbu.Props.C09_position_partial",
    "Scribbu.Props.C09_version"
   ],
   "note": "The full claim is false of the code as it stands; refuted by C09_refuted. What does hold: C09_position_partial, C09_version."
  },
  {
   "property": "C10",
   "status": "proved",
   "theorems": [
    "Scribbu.Props.C10_standard",
    "Scribbu.Props.C10_enhanced",
    "Scribbu.Props.C10_reread"
   ],
   "note": "Proved in full."
  },
  {
   "property": "C11",
   "status": "proved",
   "theorems": [
    "Scribbu.Props.C11_ends_in_id3v1"
   ],
   "note": "Proved in full."
  },
  {
   "property": "C12",
   "status": "partial",
   "theorems": [
    "Scribbu.Props.C12_remove",
    "Scribbu.Props.C12_replace",
    "Scribbu.Props.C12_refuted",
    "Scribbu.Props.C12_detect_partial"
   ],
   "note": "The full claim is false of the code as it stands; refuted by C12_refuted. What does hold: C12_remove, C12_replace, C12_detect_partial."
  },
  {
   "property": "C13",
   "status": "partial",
   "theorems": [
    "Scribbu.Props.C13_refuted",
    "Scribbu.Props.C13_enhance_refuted",
    "Scribbu.Props.C13_edited_partial"
   ],
   "note": "The full claim is false of the code as it stands; refuted by C13_refuted, C13_enhance_refuted. What does hold: C13_edited_partial."
  },
  {
   "property": "C14",
   "status": "proved",
   "theorems": [
    "Scribbu.Props.C14_setters",
    "Scribbu.Props.C14_last_set"
   ],
   "note": "Proved in full."
  },
  {
   "property": "C15",
   "status": "partial",
   "theorems": [
    "Scribbu.Props.C15_truncated_refuted",
    "Scribbu.Props.C15_no_hint_refuted",
    "Scribbu.Props.C15_track_partial",
    "Scribbu.Props.C15_frames_partial",
    "Scribbu.Props.C15_md5_hint_partial"
   ],
   "note": "The full claim is false of the code as it stands; refuted by C15_truncated_refuted, C15_no_hint_refuted. What does hold: C15_track_partial, C15_frames_partial, C15_md5_hint_partial."
  },
  {
   "property": "C16",
   "status": "proved",
   "theorems": [
    "Scribbu.Props.C16_round_trip",
    "Scribbu.Props.C16_alphabet"
   ],
   "note": "Proved in full."
  },
  {
   "property": "C17",
   "status": "partial",
   "theorems": [
    "Scribbu.Props.C17_total",
    "Scribbu.Props.C17_refuted",
    "Scribbu.Props.C17_accepts_partial"
   ],
   "note": "The full claim is false of the code as it stands; refuted by C17_refuted. What does hold: C17_total, C17_accepts_partial."
  },
  {
   "property": "C18",
   "status": "partial",
   "theorems": [
    "Scribbu.Props.C18_text_refuted",
    "Scribbu.Props.C18_text_partial",
    "Scribbu.Props.C18_text_injective_partial",
    "Scribbu.Props.C18_binary_refuted",
    "Scribbu.Props.C18_binary_partial",
    "Scribbu.Props.C18_size"
   ],
   "note": "The full claim is false of the code as it stands; refuted by C18_text_refuted, C18_binary_refuted. What does hold: C18_text_partial, C18_text_injective_partial, C18_binary_partial, C18_size."
  },
  {
   "property": "C19",
   "status": "partial",
   "theorems": [
    "Scribbu.Props.C19_observers",
    "Scribbu.Props.C19_add_results",
    "Scribbu.Props.C19_step",
    "Scribbu.Props.C19_history_partial",
    "Scribbu.Props.C19_merge_idempotent",
    "Scribbu.Props.C19_adding_keeps",
    "Scribbu.Props.C19_accepts",
    "Scribbu.Props.C19_outcomes",
    "Scribbu.Props.C19_refuted"
   ],
   "note": "The full claim is false of the code as it stands; refuted by C19_refuted. What does hold: C19_observers, C19_add_results, C19_step, C19_history_partial, C19_merge_idempotent, C19_adding_keeps, C19_accepts, C19_outcomes."
  },
  {
   "property": "C20",
   "status": "partial",
   "theorems": [
    "Scribbu.Props.C20_set_refuted",
    "Scribbu.Props.C20_set_partial",
    "Scribbu.Props.C20_large",
    "Scribbu.Props.C20_bytes",
    "Scribbu.Props.C20_read",
    "Scribbu.Props.C20_empty_refuted",
    "Scribbu.Props.C20_increments_partial",
    "Scribbu.Props.C20_increments_det"
   ],
   "note": "The full claim is false of the code as it stands; refuted by C20_set_refuted, C20_empty_refuted. What does hold: C20_set_partial, C20_large, C20_bytes, C20_read, C20_increments_partial, C20_increments_det."
  },
  {
   "property": "C21",
   "status": "partial",
   "theorems": [
    "Scribbu.Props.C21_popm",
    "Scribbu.Props.C21_popm_api_partial",
    "Scribbu.Props.C21_popm_lossless",
    "Scribbu.Props.C21_safe_refuted",
    "Scribbu.Props.C21_safe_partial"
   ],
   "note": "The full claim is false of the code as it stands; refuted by C21_safe_refuted. What does hold: C21_popm, C21_popm_api_partial, C21_popm_lossless, C21_safe_partial."
  },
  {
   "property": "C22",
   "status": "partial",
   "theorems": [
    "Scribbu.Props.C22_ufid",
    "Scribbu.Props.C22_encr_refuted",
    "Scribbu.Props.C22_encr_partial",
    "Scribbu.Props.C22_txxx",
    "Scribbu.Props.C22_txxx_parsed",
    "Scribbu.Props.C22_txxx_make_refuted",
    "Scribbu.Props.C22_txxx_make_partial",
    "Scribbu.Props.C22_comm",
    "Scribbu.Props.C22_comm_parsed_refuted",
    "Scribbu.Props.C22_comm_parsed_partial",
    "Scribbu.Props.C22_comm_make",
    "Scribbu.Props.C22_priv"
   ],
   "note": "The full claim is false of the code as it stands; refuted by C22_encr_refuted, C22_txxx_make_refuted, C22_comm_parsed_refuted. What does hold: C22_ufid, C22_encr_partial, C22_txxx, C22_txxx_parsed, C22_txxx_make_partial, C22_comm, C22_comm_parsed_partial, C22_comm_make, C22_priv."
  },
  {
   "property": "C23",
   "status": "proved",
   "theorems": [
    "Scribbu.Props.C23_header",
    "Scribbu.Props.C23_read_back"
   ],
   "note": "Proved in full."
  },
  {
   "property": "C24",
   "status": "partial",
   "theorems": [
    "Scribbu.Props.C24_v24_grouped_partial",
    "Scribbu.Props.C24_v23_refuted",
    "Scribbu.Props.C24_v24_refuted",
    "Scribbu.Props.C24_shift_partial",
    "Scribbu.Props.C24_v23_compressed_partial",
    "Scribbu.Props.C24_v23_grouped_partial",
    "Scribbu.Props.C24_v24_grouped_refuted",
    "Scribbu.Props.C24_encrypted_partial"
   ],
   "note": "The full claim is false of the code as it stands; refuted by C24_v23_refuted, C24_v24_refuted, C24_v24_grouped_refuted. What does hold: C24_v24_grouped_partial, C24_shift_partial, C24_v23_compressed_partial, C24_v23_grouped_partial, C24_encrypted_partial."
  },
  {
   "property": "C25",
   "status": "partial",
   "theorems": [
    "Scribbu.Props.C25_v23_refuted",
    "Scribbu.Props.C25_v24_refuted",
    "Scribbu.Props.C25_v234_current_partial",
    "Scribbu.Props.C25_v234_frozen_partial",
    "Scribbu.Props.C25_v234_size",
    "Scribbu.Props.C25_refuted",
    "Scribbu.Props.C25_current_partial",
    "Scribbu.Props.C25_frozen_partial",
    "Scribbu.Props.C25_size"
   ],
   "note": "The full claim is false of the code as it stands; refuted by C25_v23_refuted, C25_v24_refuted, C25_refuted. What does hold: C25_v234_current_partial, C25_v234_frozen_partial, C25_v234_size, C25_current_partial, C25_frozen_partial, C25_size."
  },
  {
   "property": "C26",
   "status": "partial",
   "theorems": [
    "Scribbu.Props.C26_v234_frames",
    "Scribbu.Props.C26_refuted",
    "Scribbu.Props.C26_partial",
    "Scribbu.Props.C26_tag_refuted",
    "Scribbu.Props.C26_tag_partial",
    "Scribbu.Props.C26_v23_refuted",
    "Scribbu.Props.C26_v23_partial",
    "Scribbu.Props.C26_v23_ext_refuted",
    "Scribbu.Props.C26_v23_ext_partial",
    "Scribbu.Props.C26_v24_refuted",
    "Scribbu.Props.C26_v24_partial"
   ],
   "note": "The full claim is false of the code as it stands; refuted by C26_refuted, C26_tag_refuted, C26_v23_refuted, C26_v23_ext_refuted, C26_v24_refuted. What does hold: C26_v234_frames, C26_partial, C26_tag_partial, C26_v23_partial, C26_v23_ext_partial, C26_v24_partial."
  },
  {
   "property": "C27",
   "status": "partial",
   "theorems": [
    "Scribbu.Props.C27_v22_refuted",
    "Scribbu.Props.C27_v22_partial",
    "Scribbu.Props.C27_v23_refuted",
    "Scribbu.Props.C27_v23_partial",
    "Scribbu.Props.C27_v23_ext_partial",
    "Scribbu.Props.C27_v24_refuted",
    "Scribbu.Props.C27_v24_partial"
   ],
   "note": "The full claim is false of the code as it stands; refuted by C27_v22_refuted, C27_v23_refuted, C27_v24_refuted. What does hold: C27_v22_partial, C27_v23_partial, C27_v23_ext_partial, C27_v24_partial."
  },
  {
   "property": "C28",
   "status": "partial",
   "theorems": [
    "Scribbu.Props.C28_refuted",
    "Scribbu.Props.C28_partial",
    "Scribbu.Props.C28_read_all"
   ],
   "note": "The full claim is false of the code as it stands; refuted by C28_refuted. What does hold: C28_partial, C28_read_all."
  },
  {
   "property": "C29",
   "status": "partial",
   "theorems": [
    "Scribbu.Props.C29_v22_refuted",
    "Scribbu.Props.C29_v22_refuted_overrun",
    "Scribbu.Props.C29_v22_refuted_empty",
    "Scribbu.Props.C29_v22_partial",
    "Scribbu.Props.C29_bodies_partial",
    "Scribbu.Props.C29_v23_refuted",
    "Scribbu.Props.C29_v23_refuted_ext",
    "Scribbu.Props.C29_v23_refuted_overrun",
    "Scribbu.Props.C29_v23_refuted_wrap",
    "Scribbu.Props.C29_v23_refuted_loop",
    "Scribbu.Props.C29_v23_partial",
    "Scribbu.Props.C29_v24_refuted",
    "Scribbu.Props.C29_v24_refuted_size",
    "Scribbu.Props.C29_v24_ext",
    "Scribbu.Props.C29_v24_partial"
   ],
   "note": "The full claim is false of the code as it stands; refuted by C29_v22_refuted, C29_v22_refuted_overrun, C29_v22_refuted_empty, C29_v23_refuted, C29_v23_refuted_ext, C29_v23_refuted_overrun, C29_v23_refuted_wrap, C29_v23_refuted_loop, C29_v24_refuted, C29_v24_refuted_size. What does hold: C29_v22_partial, C29_bodies_partial, C29_v23_partial, C29_v24_ext, C29_v24_partial."
  },
  {
   "property": "C30",
   "status": "partial",
   "theorems": [
    "Scribbu.Props.C30_never_ends_iff_partial",
    "Scribbu.Props.C30_refuted",
    "Scribbu.Props.C30_v24_refuted",
    "Scribbu.Props.C30_no_encr_partial"
   ],
   "note": "The full claim is false of the code as it stands; refuted by C30_refuted, C30_v24_refuted. What does hold: C30_never_ends_iff_partial, C30_no_encr_partial."
  },
  {
   "property": "C31",
   "status": "partial",
   "theorems": [
    "Scribbu.Props.C31_refuted",
    "Scribbu.Props.C31_refuted_delete",
    "Scribbu.Props.C31_refuted_comments",
    "Scribbu.Props.C31_refuted_add",
    "Scribbu.Props.C31_refuted_add23",
    "Scribbu.Props.C31_refuted_userText",
    "Scribbu.Props.C31_refuted_absent",
    "Scribbu.Props.C31_refuted_play24",
    "Scribbu.Props.C31_refuted_move",
    "Scribbu.Props.C31_move_counts",
    "Scribbu.Props.C31_refuted_copy",
    "Scribbu.Props.C31_partial",
    "Scribbu.Props.C31_defaults",
    "Scribbu.Props.C31_read_listed",
    "Scribbu.Props.C31_erase_stale",
    "Scribbu.Props.C31_insert_stale"
   ],
   "note": "The full claim is false of the code as it stands; refuted by C31_refuted, C31_refuted_delete, C31_refuted_comments, C31_refuted_add, C31_refuted_add23, C31_refuted_userText, C31_refuted_absent, C31_refuted_play24, C31_refuted_move, C31_refuted_copy. What does hold: C31_move_counts, C31_partial, C31_defaults, C31_read_listed, C31_erase_stale, C31_insert_stale."
  },
  {
   "property": "C32",
   "status": "partial",
   "theorems": [
    "Scribbu.Props.C32_refuted",
    "Scribbu.Props.C32_refuted_wrap",
    "Scribbu.Props.C32_refuted_unchanged",
    "Scribbu.Props.C32_partial"
   ],
   "note": "The full claim is false of the code as it stands; refuted by C32_refuted, C32_refuted_wrap, C32_refuted_unchanged. What does hold: C32_partial."
  },
  {
   "property": "C33",
   "status": "partial",
   "theorems": [
    "Scribbu.Props.C33_refuted",
    "Scribbu.Props.C33_refuted_v24",
    "Scribbu.Props.C33_refuted_extended",
    "Scribbu.Props.C33_refuted_empty",
    "Scribbu.Props.C33_partial",
    "Scribbu.Props.C33_copy_partial",
    "Scribbu.Props.C33_emplace_partial",
    "Scribbu.Props.C33_created_partial",
    "Scribbu.Props.C33_truncated",
    "Scribbu.Props.C33_copy_v24_partial"
   ],
   "note": "The full claim is false of the code as it stands; refuted by C33_refuted, C33_refuted_v24, C33_refuted_extended, C33_refuted_empty. What does hold: C33_partial, C33_copy_partial, C33_emplace_partial, C33_created_partial, C33_truncated, C33_copy_v24_partial."
  },
  {
   "property": "C34",
   "status": "proved",
   "theorems": [
    "Scribbu.Props.C34_crash",
    "Scribbu.Props.C34_done"
   ],
   "note": "Proved in full."
  },
  {
   "property": "C35",
   "status": "partial",
   "theorems": [
    "Scribbu.Props.C35_refuted",
    "Scribbu.Props.C35_refuted_overflow",
    "Scribbu.Props.C35_relative",
    "Scribbu.Props.C35_partial",
    "Scribbu.Props.C35_refuted_destroyed"
   ],
   "note": "The full claim is false of the code as it stands; refuted by C35_refuted, C35_refuted_overflow, C35_refuted_destroyed. What does hold: C35_relative, C35_partial."
  },
  {
   "property": "C36",
   "status": "proved",
   "theorems": [
    "Scribbu.Props.C36_accepted_valid",
    "Scribbu.Props.C36_valid_accepted"
   ],
   "note": "Proved in full."
  },
  {
   "property": "C37",
   "status": "partial",
   "theorems": [
    "Scribbu.Props.C37_terminates",
    "Scribbu.Props.C37_refuted",
    "Scribbu.Props.C37_sum_partial",
    "Scribbu.Props.C37_xing_partial",
    "Scribbu.Props.C37_uninit_refuted",
    "Scribbu.Props.C37_vbri_refuted"
   ],
   "note": "The full claim is false of the code as it stands; refuted by C37_refuted, C37_uninit_refuted, C37_vbri_refuted. What does hold: C37_terminates, C37_sum_partial, C37_xing_partial."
  },
  {
   "property": "C38",
   "status": "partial",
   "theorems": [
    "Scribbu.Props.C38_refuted",
    "Scribbu.Props.C38_moves",
    "Scribbu.Props.C38_partial"
   ],
   "note": "The full claim is false of the code as it stands; refuted by C38_refuted. What does hold: C38_moves, C38_partial."
  },
  {
   "property": "C39",
   "status": "partial",
   "theorems": [
    "Scribbu.Props.C39_refuted_example",
    "Scribbu.Props.C39_refuted_empty",
    "Scribbu.Props.C39_refuted_compress",
    "Scribbu.Props.C39_refuted_compress_always",
    "Scribbu.Props.C39_refuted_replace_run",
    "Scribbu.Props.C39_cap_partial",
    "Scribbu.Props.C39_replace_partial",
    "Scribbu.Props.C39_nothing"
   ],
   "note": "The full claim is false of the code as it stands; refuted by C39_refuted_example, C39_refuted_empty, C39_refuted_compress, C39_refuted_compress_always, C39_refuted_replace_run. What does hold: C39_cap_partial, C39_replace_partial, C39_nothing."
  },
  {
   "property": "C40",
   "status": "partial",
   "theorems": [
    "Scribbu.Props.C40_refuted",
    "Scribbu.Props.C40_refuted_all",
    "Scribbu.Props.C40_partial"
   ],
   "note": "The full claim is false of the code as it stands; refuted by C40_refuted, C40_refuted_all. What does hold: C40_partial."
  },
  {
   "property": "C41",
   "status": "partial",
   "theorems": [
    "Scribbu.Props.C41_refuted",
    "Scribbu.Props.C41_refuted_blank",
    "Scribbu.Props.C41_refuted_automatic",
    "Scribbu.Props.C41_partial",
    "Scribbu.Props.C41_field_partial",
    "Scribbu.Props.C41_refuted_consults"
   ],
   "note": "The full claim is false of the code as it stands; refuted by C41_refuted, C41_refuted_blank, C41_refuted_automatic, C41_refuted_consults. What does hold: C41_partial, C41_field_partial."
  },
  {
   "property": "C42",
   "status": "proved",
   "theorems": [
    "Scribbu.Props.C42_text",
    "Scribbu.Props.C42_defined",
    "Scribbu.Props.C42_lists",
    "Scribbu.Props.C42_prefixes",
    "Scribbu.Props.C42_match"
   ],
   "note": "Proved in full."
  },
  {
   "property": "C43",
   "status": "partial",
   "theorems": [
    "Scribbu.Props.C43_tags",
    "Scribbu.Props.C43_dry_run",
    "Scribbu.Props.C43_reason",
    "Scribbu.Props.C43_refuted",
    "Scribbu.Props.C43_refuted_short",
    "Scribbu.Props.C43_refuted_order",
    "Scribbu.Props.C43_partial",
    "Scribbu.Props.C43_others",
    "Scribbu.Props.C43_written"
   ],
   "note": "The full claim is false of the code as it stands; refuted by C43_refuted, C43_refuted_short, C43_refuted_order. What does hold: C43_tags, C43_dry_run, C43_reason, C43_partial, C43_others, C43_written."
  },
  {
   "property": "C44",
   "status": "proved",
   "theorems": [
    "Scribbu.Props.C44_nothing_lost",
    "Scribbu.Props.C44_others_kept",
    "Scribbu.Props.C44_dry_run"
   ],
   "note": "Proved in full."
  },
  {
   "property": "C45",
   "status": "partial",
   "theorems": [
    "Scribbu.Props.C45_refuted",
    "Scribbu.Props.C45_refuted_bpm",
    "Scribbu.Props.C45_v22_partial",
    "Scribbu.Props.C45_v23_partial",
    "Scribbu.Props.C45_read_partial",
    "Scribbu.Props.C45_distinct_partial"
   ],
   "note": "The full claim is false of the code as it stands; refuted by C45_refuted, C45_refuted_bpm. What does hold: C45_v22_partial, C45_v23_partial, C45_read_partial, C45_distinct_partial."
  },
  {
   "property": "C46",
   "status": "partial",
   "theorems": [
    "Scribbu.Props.C46_v1_refuted",
    "Scribbu.Props.C46_v1_wrong_size_partial",
    "Scribbu.Props.C46_v1_known_short_partial",
    "Scribbu.Props.C46_v1_known_refuted",
    "Scribbu.Props.C46_v22_refuted",
    "Scribbu.Props.C46_v22_partial",
    "Scribbu.Props.C46_v23_refuted",
    "Scribbu.Props.C46_v23_partial",
    "Scribbu.Props.C46_v24_refuted",
    "Scribbu.Props.C46_v24_partial"
   ],
   "note": "The full claim is false of the code as it stands; refuted by C46_v1_refuted, C46_v1_known_refuted, C46_v22_refuted, C46_v23_refuted, C46_v24_refuted. What does hold: C46_v1_wrong_size_partial, C46_v1_known_short_partial, C46_v22_partial, C46_v23_partial, C46_v24_partial."
  },
  {
   "property": "C47",
   "status": "partial",
   "theorems": [
    "Scribbu.Props.C47_merge",
    "Scribbu.Props.C47_update_refuted"
   ],
   "note": "The full claim is false of the code as it stands; refuted by C47_update_refuted. What does hold: C47_merge."
  },
  {
   "property": "C48",
   "status": "partial",
   "theorems": [
    "Scribbu.Props.C48_text_refuted",
    "Scribbu.Props.C48_text_refuted'",
    "Scribbu.Props.C48_text_partial",
    "Scribbu.Props.C48_comm_needs_unsync_refuted",
    "Scribbu.Props.C48_priv_refuted",
    "Scribbu.Props.C48_priv_partial",
    "Scribbu.Props.C48_xtag_refuted",
    "Scribbu.Props.C48_xtag_terminates_partial",
    "Scribbu.Props.C48_xtag_needs_unsync_refuted"
   ],
   "note": "The full claim is false of the code as it stands; refuted by C48_text_refuted, C48_text_refuted', C48_comm_needs_unsync_refuted, C48_priv_refuted, C48_xtag_refuted, C48_xtag_needs_unsync_refuted. What does hold: C48_text_partial, C48_priv_partial, C48_xtag_terminates_partial."
  },
  {
   "property": "C49",
   "status": "partial",
   "theorems": [
    "Scribbu.Props.C49_counts_partial",
    "Scribbu.Props.C49_encr",
    "Scribbu.Props.C49_refuted",
    "Scribbu.Props.C49_comm_refuted",
    "Scribbu.Props.C49_comm_partial",
    "Scribbu.Props.C49_xtag_refuted",
    "Scribbu.Props.C49_priv_partial"
   ],
   "note": "The full claim is false of the code as it stands; refuted by C49_refuted, C49_comm_refuted, C49_xtag_refuted. What does hold: C49_counts_partial, C49_encr, C49_comm_partial, C49_priv_partial."
  },
  {
   "property": "C50",
   "status": "partial",
   "theorems": [
    "Scribbu.Props.C50_refuted",
    "Scribbu.Props.C50_parsed_partial"
   ],
   "note": "The full claim is false of the code as it stands; refuted by C50_refuted. What does hold: C50_parsed_partial."
  },
  {
   "property": "C51",
   "status": "partial",
   "theorems": [
    "Scribbu.Props.C51_refuted",
    "Scribbu.Props.C51_partial",
    "Scribbu.Props.C51_encr_refuted",
    "Scribbu.Props.C51_encr_partial",
    "Scribbu.Props.C51_comm_refuted",
    "Scribbu.Props.C51_comm_refuted_ub",
    "Scribbu.Props.C51_comm_partial",
    "Scribbu.Props.C51_xtag_refuted",
    "Scribbu.Props.C51_xtag_refuted_over",
    "Scribbu.Props.C51_xtag_partial",
    "Scribbu.Props.C51_priv_refuted",
    "Scribbu.Props.C51_priv_partial"
   ],
   "note": "The full claim is false of the code as it stands; refuted by C51_refuted, C51_encr_refuted, C51_comm_refuted, C51_comm_refuted_ub, C51_xtag_refuted, C51_xtag_refuted_over, C51_priv_refuted. What does hold: C51_partial, C51_encr_partial, C51_comm_partial, C51_xtag_partial, C51_priv_partial."
  },
  {
   "property": "C52",
   "status": "partial",
   "theorems": [
    "Scribbu.Props.C52_v23",
    "Scribbu.Props.C52_v24_refuted",
    "Scribbu.Props.C52_v24_partial",
    "Scribbu.Props.C52_v22"
   ],
   "note": "The full claim is false of the code as it stands; refuted by C52_v24_refuted. What does hold: C52_v23, C52_v24_partial, C52_v22."
  },
  {
   "property": "C53",
   "status": "partial",
   "theorems": [
    "Scribbu.Props.C53_refuted",
    "Scribbu.Props.C53_partial"
   ],
   "note": "The full claim is false of the code as it stands; refuted by C53_refuted. What does hold: C53_partial."
  },
  {
   "property": "C54",
   "status": "partial",
   "theorems": [
    "Scribbu.Props.C54_refuted_of",
    "Scribbu.Props.C54_refuted",
    "Scribbu.Props.C54_refuted_swallows",
    "Scribbu.Props.C54_refuted_footer",
    "Scribbu.Props.C54_refuted_unsync",
    "Scribbu.Props.C54_refuted_crc",
    "Scribbu.Props.C54_partial"
   ],
   "note": "The full claim is false of the code as it stands; refuted by C54_refuted_of, C54_refuted, C54_refuted_swallows, C54_refuted_footer, C54_refuted_unsync, C54_refuted_crc. What does hold: C54_partial."
  },
  {
   "property": "C55",
   "status": "partial",
   "theorems": [
    "Scribbu.Props.C55_v23",
    "Scribbu.Props.C55_v24_refuted",
    "Scribbu.Props.C55_v24_refuted_restrictions",
    "Scribbu.Props.C55_v24_partial"
   ],
   "note": "The full claim is false of the code as it stands; refuted by C55_v24_refuted, C55_v24_refuted_restrictions. What does hold: C55_v23, C55_v24_partial."
  },
  {
   "property": "C56",
   "status": "partial",
   "theorems": [
    "Scribbu.Props.C56_v22_refuted",
    "Scribbu.Props.C56_v22_partial",
    "Scribbu.Props.C56_v23_refuted",
    "Scribbu.Props.C56_v23_partial",
    "Scribbu.Props.C56_v23_refuted_crc",
    "Scribbu.Props.C56_v24_refuted",
    "Scribbu.Props.C56_v24_partial"
   ],
   "note": "The full claim is false of the code as it stands; refuted by C56_v22_refuted, C56_v23_refuted, C56_v23_refuted_crc, C56_v24_refuted. What does hold: C56_v22_partial, C56_v23_partial, C56_v24_partial."
  },
  {
   "property": "C57",
   "status": "partial",
   "theorems": [
    "Scribbu.Props.C57_v23",
    "Scribbu.Props.C57_v24_refuted",
    "Scribbu.Props.C57_v24_refuted_indicator",
    "Scribbu.Props.C57_v24_partial",
    "Scribbu.Props.C57_ext24"
   ],
   "note": "The full claim is false of the code as it stands; refuted by C57_v24_refuted, C57_v24_refuted_indicator. What does hold: C57_v23, C57_v24_partial, C57_ext24."
  },
  {
   "property": "C58",
   "status": "partial",
   "theorems": [
    "Scribbu.Props.C58_refuted",
    "Scribbu.Props.C58_partial"
   ],
   "note": "The full claim is false of the code as it stands; refuted by C58_refuted. What does hold: C58_partial."
  },
  {
   "property": "C59",
   "status": "partial",
   "theorems": [
    "Scribbu.Props.C59_refuted",
    "Scribbu.Props.C59_refuted_tmp",
    "Scribbu.Props.C59_partial",
    "Scribbu.Props.C59_others"
   ],
   "note": "The full claim is false of the code as it stands; refuted by C59_refuted, C59_refuted_tmp. What does hold: C59_partial, C59_others."
  },
  {
   "property": "C60",
   "status": "proved",
   "theorems": [
    "Scribbu.Props.C60_backup",
    "Scribbu.Props.C60_new"
   ],
   "note": "Proved in full."
  },
  {
   "property": "C61",
   "status": "proved",
   "theorems": [
    "Scribbu.Props.C61_understood",
    "Scribbu.Props.C61_unambiguous",
    "Scribbu.Props.C61_swallowed",
    "Scribbu.Props.C61_reserved",
    "Scribbu.Props.C61_repeated"
   ],
   "note": "Proved in full."
  },
  {
   "property": "C62",
   "status": "partial",
   "theorems": [
    "Scribbu.Props.C62_refuted",
    "Scribbu.Props.C62_refuted_all",
    "Scribbu.Props.C62_refuted_forever",
    "Scribbu.Props.C62_partial"
   ],
   "note": "The full claim is false of the code as it stands; refuted by C62_refuted, C62_refuted_all, C62_refuted_forever. What does hold: C62_partial."
  },
  {
   "property": "C63",
   "status": "partial",
   "theorems": [
    "Scribbu.Props.C63_refuted",
    "Scribbu.Props.C63_refuted_example",
    "Scribbu.Props.C63_refuted_numbers",
    "Scribbu.Props.C63_partial"
   ],
   "note": "The full claim is false of the code as it stands; refuted by C63_refuted, C63_refuted_example, C63_refuted_numbers. What does hold: C63_partial."
  },
  {
   "property": "C64",
   "status": "partial",
   "theorems": [
    "Scribbu.Props.C64_refuted",
    "Scribbu.Props.C64_refuted_empty",
    "Scribbu.Props.C64_partial",
    "Scribbu.Props.C64_optional_partial"
   ],
   "note": "The full claim is false of the code as it stands; refuted by C64_refuted, C64_refuted_empty. What does hold: C64_partial, C64_optional_partial."
  },
  {
   "property": "C65",
   "status": "partial",
   "theorems": [
    "Scribbu.Props.C65_refuted",
    "Scribbu.Props.C65_refuted_md5",
    "Scribbu.Props.C65_refuted_hex",
    "Scribbu.Props.C65_partial"
   ],
   "note": "The full claim is false of the code as it stands; refuted by C65_refuted, C65_refuted_md5, C65_refuted_hex. What does hold: C65_partial."
  },
  {
   "property": "C66",
   "status": "partial",
   "theorems": [
    "Scribbu.Props.C66_refuted",
    "Scribbu.Props.C66_refuted_absolute",
    "Scribbu.Props.C66_partial"
   ],
   "note": "The full claim is false of the code as it stands; refuted by C66_refuted, C66_refuted_absolute. What does hold: C66_partial."
  },
  {
   "property": "C67",
   "status": "partial",
   "theorems": [
    "Scribbu.Props.C67_refuted",
    "Scribbu.Props.C67_partial"
   ],
   "note": "The full claim is false of the code as it stands; refuted by C67_refuted. What does hold: C67_partial."
  },
  {
   "property": "C68",
   "status": "partial",
   "theorems": [
    "Scribbu.Props.C68_refuted",
    "Scribbu.Props.C68_partial"
   ],
   "note": "The full claim is false of the code as it stands; refuted by C68_refuted. What does hold: C68_partial."
  },
  {
   "property": "C69",
   "status": "partial",
   "theorems": [
    "Scribbu.Props.C69_refuted",
    "Scribbu.Props.C69_partial"
   ],
   "note": "The full claim is false of the code as it stands; refuted by C69_refuted. What does hold: C69_partial."
  },
  {
   "property": "C70",
   "status": "partial",
   "theorems": [
    "Scribbu.Props.C70_refuted",
    "Scribbu.Props.C70_partial"
   ],
   "note": "The full claim is false of the code as it stands; refuted by C70_refuted. What does hold: C70_partial."
  },
  {
   "property": "C71",
   "status": "partial",
   "theorems": [
    "Scribbu.Props.C71_refuted",
    "Scribbu.Props.C71_partial",
    "Scribbu.Props.C71_v1_partial",
    "Scribbu.Props.C71_year_partial"
   ],
   "note": "The full claim is false of the code as it stands; refuted by C71_refuted. What does hold: C71_partial, C71_v1_partial, C71_year_partial."
  },
  {
   "property": "C72",
   "status": "proved",
   "theorems": [
    "Scribbu.Props.C72_encoding_names",
    "Scribbu.Props.C72_no_other_names",
    "Scribbu.Props.C72_on_no_encoding"
   ],
   "note": "Proved in full."
  },
  {
   "property": "C73",
   "status": "partial",
   "theorems": [
    "Scribbu.Props.C73_refuted",
    "Scribbu.Props.C73_refuted_all",
    "Scribbu.Props.C73_partial"
   ],
   "note": "The full claim is false of the code as it stands; refuted by C73_refuted, C73_refuted_all. What does hold: C73_partial."
  },
  {
   "property": "C74",
   "status": "partial",
   "theorems": [
    "Scribbu.Props.C74_refuted",
    "Scribbu.Props.C74_refuted_locale",
    "Scribbu.Props.C74_refuted_print",
    "Scribbu.Props.C74_no_language",
    "Scribbu.Props.C74_mistaken",
    "Scribbu.Props.C74_code_partial",
    "Scribbu.Props.C74_locale_partial",
    "Scribbu.Props.C74_read_partial"
   ],
   "note": "The full claim is false of the code as it stands; refuted by C74_refuted, C74_refuted_locale, C74_refuted_print. What does hold: C74_no_language, C74_mistaken, C74_code_partial, C74_locale_partial, C74_read_partial."
  },
  {
   "property": "C75",
   "status": "partial",
   "theorems": [
    "Scribbu.Props.C75_refuted",
    "Scribbu.Props.C75_refuted_all",
    "Scribbu.Props.C75_refuted_mark",
    "Scribbu.Props.C75_partial",
    "Scribbu.Props.C75_code_unit",
    "Scribbu.Props.C75_refuted_overrun"
   ],
   "note": "The full claim is false of the code as it stands; refuted by C75_refuted, C75_refuted_all, C75_refuted_mark, C75_refuted_overrun. What does hold: C75_partial, C75_code_unit."
  },
  {
   "property": "C76",
   "status": "partial",
   "theorems": [
    "Scribbu.Props.C76_refuted",
    "Scribbu.Props.C76_refuted_latin",
    "Scribbu.Props.C76_refuted_latin_utf8",
    "Scribbu.Props.C76_partial",
    "Scribbu.Props.C76_error",
    "Scribbu.Props.C76_there_and_back_partial"
   ],
   "note": "The full claim is false of the code as it stands; refuted by C76_refuted, C76_refuted_latin, C76_refuted_latin_utf8. What does hold: C76_partial, C76_error, C76_there_and_back_partial."
  },
  {
   "property": "C77",
   "status": "partial",
   "theorems": [
    "Scribbu.Props.C77_refuted",
    "Scribbu.Props.C77_partial"
   ],
   "note": "The full claim is false of the code as it stands; refuted by C77_refuted. What does hold: C77_partial."
  },
  {
   "property": "C78",
   "status": "partial",
   "theorems": [
    "Scribbu.Props.C78_closest_partial",
    "Scribbu.Props.C78_long_partial",
    "Scribbu.Props.C78_refuted_far",
    "Scribbu.Props.C78_refuted",
    "Scribbu.Props.C78_refuted_overlooked",
    "Scribbu.Props.C78_refuted_empty"
   ],
   "note": "The full claim is false of the code as it stands; refuted by C78_refuted_far, C78_refuted, C78_refuted_overlooked, C78_refuted_empty. What does hold: C78_closest_partial, C78_long_partial."
  },
  {
   "property": "C79",
   "status": "partial",
   "theorems": [
    "Scribbu.Props.C79_refuted_absent",
    "Scribbu.Props.C79_refuted",
    "Scribbu.Props.C79_partial",
    "Scribbu.Props.C79_created"
   ],
   "note": "The full claim is false of the code as it stands; refuted by C79_refuted_absent, C79_refuted. What does hold: C79_partial, C79_created."
  },
  {
   "property": "C80",
   "status": "partial",
   "theorems": [
    "Scribbu.Props.C80_refuted_absent",
    "Scribbu.Props.C80_refuted",
    "Scribbu.Props.C80_partial",
    "Scribbu.Props.C80_refuted_readback",
    "Scribbu.Spec.Scribbu.Props.C80_genre_partial",
    "Scribbu.Spec.Scribbu.Props.C80_refuted_blues"
   ],
   "note": "The full claim is false of the code as it stands; refuted by C80_refuted_absent, C80_refuted, C80_refuted_readback, C80_refuted_blues. What does hold: C80_partial, C80_genre_partial."
  },
  {
   "property": "C81",
   "status": "partial",
   "theorems": [
    "Scribbu.Props.C81_partial",
    "Scribbu.Props.C81_refuted_track",
    "Scribbu.Props.C81_refuted",
    "Scribbu.Props.C81_refuted_text",
    "Scribbu.Props.C81_refuted_comments"
   ],
   "note": "The full claim is false of the code as it stands; refuted by C81_refuted_track, C81_refuted, C81_refuted_text, C81_refuted_comments. What does hold: C81_partial."
  },
  {
   "property": "C82",
   "status": "partial",
   "theorems": [
    "Scribbu.Props.C82_refuted",
    "Scribbu.Props.C82_partial",
    "Scribbu.Props.C82_refuted_compatible",
    "Scribbu.Props.C82_refuted_number"
   ],
   "note": "The full claim is false of the code as it stands; refuted by C82_refuted, C82_refuted_compatible, C82_refuted_number. What does hold: C82_partial."
  },
  {
   "property": "C83",
   "status": "partial",
   "theorems": [
    "Scribbu.Props.C83_refuted_v1",
    "Scribbu.Props.C83_refuted",
    "Scribbu.Props.C83_refuted_create",
    "Scribbu.Props.C83_partial"
   ],
   "note": "The full claim is false of the code as it stands; refuted by C83_refuted_v1, C83_refuted, C83_refuted_create. What does hold: C83_partial."
  },
  {
   "property": "C84",
   "status": "partial",
   "theorems": [
    "Scribbu.Props.C84_refuted",
    "Scribbu.Props.C84_partial",
    "Scribbu.Props.C84_all"
   ],
   "note": "The full claim is false of the code as it stands; refuted by C84_refuted. What does hold: C84_partial, C84_all."
  },
  {
   "property": "C85",
   "status": "partial",
   "theorems": [
    "Scribbu.Props.C85_refuted_both",
    "Scribbu.Props.C85_refuted",
    "Scribbu.Props.C85_refuted_order",
    "Scribbu.Props.C85_refuted_several",
    "Scribbu.Props.C85_refuted_v22",
    "Scribbu.Props.C85_partial",
    "Scribbu.Props.C85_made_partial",
    "Scribbu.Props.C85_new_partial"
   ],
   "note": "The full claim is false of the code as it stands; refuted by C85_refuted_both, C85_refuted, C85_refuted_order, C85_refuted_several, C85_refuted_v22. What does hold: C85_partial, C85_made_partial, C85_new_partial."
  },
  {
   "property": "C86",
   "status": "partial",
   "theorems": [
    "Scribbu.Props.C86_refuted_untouched",
    "Scribbu.Props.C86_refuted",
    "Scribbu.Props.C86_refuted_lost",
    "Scribbu.Props.C86_partial",
    "Scribbu.Props.C86_file_partial"
   ],
   "note": "The full claim is false of the code as it stands; refuted by C86_refuted_untouched, C86_refuted, C86_refuted_lost. What does hold: C86_partial, C86_file_partial."
  },
  {
   "property": "C87",
   "status": "partial",
   "theorems": [
    "Scribbu.Props.C87_refuted_locale",
    "Scribbu.Props.C87_refuted",
    "Scribbu.Props.C87_partial"
   ],
   "note": "The full claim is false of the code as it stands; refuted by C87_refuted_locale, C87_refuted. What does hold: C87_partial."
  },
  {
   "property": "C88",
   "status": "partial",
   "theorems": [
    "Scribbu.Props.C88_partial",
    "Scribbu.Props.C88_refuted_omitted",
    "Scribbu.Props.C88_refuted",
    "Scribbu.Props.C88_refuted_wide",
    "Scribbu.Props.C88_refuted_stuck",
    "Scribbu.Props.C88_refuted_others",
    "Scribbu.Props.C88_refuted_short",
    "Scribbu.Props.C88_runs_partial"
   ],
   "note": "The full claim is false of the code as it stands; refuted by C88_refuted_omitted, C88_refuted, C88_refuted_wide, C88_refuted_stuck, C88_refuted_others, C88_refuted_short. What does hold: C88_partial, C88_runs_partial."
  },
  {
   "property": "C89",
   "status": "partial",
   "theorems": [
    "Scribbu.Props.C89_refuted",
    "Scribbu.Props.C89_refuted_claim",
    "Scribbu.Props.C89_partial"
   ],
   "note": "The full claim is false of the code as it stands; refuted by C89_refuted, C89_refuted_claim. What does hold: C89_partial."
  },
  {
   "property": "C90",
   "status": "partial",
   "theorems": [
    "Scribbu.Props.C90_partial",
    "Scribbu.Props.C90_refuted",
    "Scribbu.Props.C90_refuted_negative"
   ],
   "note": "The full claim is false of the code as it stands; refuted by C90_refuted, C90_refuted_negative. What does hold: C90_partial."
  },
  {
   "property": "C91",
   "status": "partial",
   "theorems": [
    "Scribbu.Props.C91_refuted_tag",
    "Scribbu.Props.C91_refuted",
    "Scribbu.Props.C91_partial",
    "Scribbu.Props.C91_dry",
    "Scribbu.Props.C91_always",
    "Scribbu.Props.C91_refuted_empty",
    "Scribbu.Props.C91_created"
   ],
   "note": "The full claim is false of the code as it stands; refuted by C91_refuted_tag, C91_refuted, C91_refuted_empty. What does hold: C91_partial, C91_dry, C91_always, C91_created."
  },
  {
   "property": "C92",
   "status": "partial",
   "theorems": [
    "Scribbu.Props.C92_partial",
    "Scribbu.Props.C92_rewritten",
    "Scribbu.Props.C92_refuted"
   ],
   "note": "The full claim is false of the code as it stands; refuted by C92_refuted. What does hold: C92_partial, C92_rewritten."
  },
  {
   "property": "C93",
   "status": "partial",
   "theorems": [
    "Scribbu.Props.C93_partial",
    "Scribbu.Props.C93_refuted",
    "Scribbu.Props.C93_again_partial",
    "Scribbu.Props.C93_refuses"
   ],
   "note": "The full claim is false of the code as it stands; refuted by C93_refuted. What does hold: C93_partial, C93_again_partial, C93_refuses."
  },
  {
   "property": "C94",
   "status": "partial",
   "theorems": [
    "Scribbu.Props.C94_partial",
    "Scribbu.Props.C94_refuted_created",
    "Scribbu.Props.C94_refuted",
    "Scribbu.Props.C94_refuted_get",
    "Scribbu.Props.C94_always",
    "Scribbu.Props.C94_created",
    "Scribbu.Props.C94_dry"
   ],
   "note": "The full claim is false of the code as it stands; refuted by C94_refuted_created, C94_refuted, C94_refuted_get. What does hold: C94_partial, C94_always, C94_created, C94_dry."
  },
  {
   "property": "C95",
   "status": "partial",
   "theorems": [
    "Scribbu.Props.C95_partial",
    "Scribbu.Props.C95_exact",
    "Scribbu.Props.C95_refuted",
    "Scribbu.Props.C95_refuted_sep"
   ],
   "note": "The full claim is false of the code as it stands; refuted by C95_refuted, C95_refuted_sep. What does hold: C95_partial, C95_exact."
  },
  {
   "property": "C96",
   "status": "partial",
   "theorems": [
    "Scribbu.Props.C96_partial",
    "Scribbu.Props.C96_refuted",
    "Scribbu.Props.C96_refuted_quote"
   ],
   "note": "The full claim is false of the code as it stands; refuted by C96_refuted, C96_refuted_quote. What does hold: C96_partial."
  },
  {
   "property": "C97",
   "status": "partial",
   "theorems": [
    "Scribbu.Props.C97_partial",
    "Scribbu.Props.C97_exact",
    "Scribbu.Props.C97_refuted"
   ],
   "note": "The full claim is false of the code as it stands; refuted by C97_refuted. What does hold: C97_partial, C97_exact."
  },
  {
   "property": "C98",
   "status": "partial",
   "theorems": [
    "Scribbu.Props.C98_partial",
    "Scribbu.Props.C98_exact",
    "Scribbu.Props.C98_refuted",
    "Scribbu.Props.C98_refuted_glued",
    "Scribbu.Props.C98_refuted_v4"
   ],
   "note": "The full claim is false of the code as it stands; refuted by C98_refuted, C98_refuted_glued, C98_refuted_v4. What does hold: C98_partial, C98_exact."
  },
  {
   "property": "C99",
   "status": "partial",
   "theorems": [
    "Scribbu.Props.C99_partial",
    "Scribbu.Props.C99_refuted",
    "Scribbu.Props.C99_refuted_quote",
    "Scribbu.Props.C99_refuted_tsv"
   ],
   "note": "The full claim is false of the code as it stands; refuted by C99_refuted, C99_refuted_quote, C99_refuted_tsv. What does hold: C99_partial."
  },
  {
   "property": "C100",
   "status": "partial",
   "theorems": [
    "Scribbu.Props.C100_partial",
    "Scribbu.Props.C100_refuted",
    "Scribbu.Props.C100_refuted_ascii"
   ],
   "note": "The full claim is false of the code as it stands; refuted by C100_refuted, C100_refuted_ascii. What does hold: C100_partial."
  },
  {
   "property": "C101",
   "status": "partial",
   "theorems": [
    "Scribbu.Props.C101_partial",
    "Scribbu.Props.C101_zero",
    "Scribbu.Props.C101_refuted"
   ],
   "note": "The full claim is false of the code as it stands; refuted by C101_refuted. What does hold: C101_partial, C101_zero."
  },
  {
   "property": "C102",
   "status": "partial",
   "theorems": [
    "Scribbu.Props.C102_partial",
    "Scribbu.Props.C102_refuted",
    "Scribbu.Props.C102_refuted_full"
   ],
   "note": "The full claim is false of the code as it stands; refuted by C102_refuted, C102_refuted_full. What does hold: C102_partial."
  },
  {
   "property": "C103",
   "status": "partial",
   "theorems": [
    "Scribbu.Props.C103_partial",
    "Scribbu.Props.C103_refuted"
   ],
   "note": "The full claim is false of the code as it stands; refuted by C103_refuted. What does hold: C103_partial."
  },
  {
   "property": "C104",
   "status": "partial",
   "theorems": [
    "Scribbu.Props.C104_partial",
    "Scribbu.Props.C104_stdout_partial",
    "Scribbu.Props.C104_refuted",
    "Scribbu.Props.C104_refuted_path"
   ],
   "note": "The full claim is false of the code as it stands; refuted by C104_refuted, C104_refuted_path. What does hold: C104_partial, C104_stdout_partial."
  },
  {
   "property": "C105",
   "status": "partial",
   "theorems": [
    "Scribbu.Props.C105_partial",
    "Scribbu.Props.C105_refuted"
   ],
   "note": "The full claim is false of the code as it stands; refuted by C105_refuted. What does hold: C105_partial."
  },
  {
   "property": "C106",
   "status": "partial",
   "theorems": [
    "Scribbu.Props.C106_partial",
    "Scribbu.Props.C106_refuted",
    "Scribbu.Props.C106_refuted_v1"
   ],
   "note": "The full claim is false of the code as it stands; refuted by C106_refuted, C106_refuted_v1. What does hold: C106_partial."
  },
  {
   "property": "C107",
   "status": "partial",
   "theorems": [
    "Scribbu.Props.C107_partial",
    "Scribbu.Props.C107_refuted_ignored",
    "Scribbu.Props.C107_refuted"
   ],
   "note": "The full claim is false of the code as it stands; refuted by C107_refuted_ignored, C107_refuted. What does hold: C107_partial."
  },
  {
   "property": "C108",
   "status": "partial",
   "theorems": [
    "Scribbu.Props.C108_partial",
    "Scribbu.Props.C108_refuted"
   ],
   "note": "The full claim is false of the code as it stands; refuted by C108_refuted. What does hold: C108_partial."
  },
  {
   "property": "C109",
   "status": "partial",
   "theorems": [
    "Scribbu.Props.C109_partial",
    "Scribbu.Props.C109_refuted",
    "Scribbu.Props.C109_refuted_full",
    "Scribbu.Props.C109_unopened"
   ],
   "note": "The full claim is false of the code as it stands; refuted by C109_refuted, C109_refuted_full. What does hold: C109_partial, C109_unopened."
  },
  {
   "property": "C110",
   "status": "partial",
   "theorems": [
    "Scribbu.Props.C110_partial",
    "Scribbu.Props.C110_refuted"
   ],
   "note": "The full claim is false of the code as it stands; refuted by C110_refuted. What does hold: C110_partial."
  },
  {
   "property": "C111",
   "status": "partial",
   "theorems": [
    "Scribbu.Props.C111_partial",
    "Scribbu.Props.C111_refuted"
   ],
   "note": "The full claim is false of the code as it stands; refuted by C111_refuted. What does hold: C111_partial."
  },
  {
   "property": "C112",
   "status": "partial",
   "theorems": [
    "Scribbu.Props.C112_partial",
    "Scribbu.Props.C112_refuted",
    "Scribbu.Props.C112_notices_partial"
   ],
   "note": "The full claim is false of the code as it stands; refuted by C112_refuted. What does hold: C112_partial, C112_notices_partial."
  },
  {
   "property": "C113",
   "status": "partial",
   "theorems": [
    "Scribbu.Props.C113_partial",
    "Scribbu.Props.C113_kept",
    "Scribbu.Props.C113_refuted"
   ],
   "note": "The full claim is false of the code as it stands; refuted by C113_refuted. What does hold: C113_partial, C113_kept."
  },
  {
   "property": "C114",
   "status": "proved",
   "theorems": [
    "Scribbu.Props.C114_sub",
    "Scribbu.Props.C114_only"
   ],
   "note": "Proved in full."
  },
  {
   "property": "C115",
   "status": "proved",
   "theorems": [
    "Scribbu.Props.C115_asked",
    "Scribbu.Props.C115_unasked"
   ],
   "note": "Proved in full."
  },
  {
   "property": "C116",
   "status": "partial",
   "theorems": [
    "Scribbu.Props.C116_partial",
    "Scribbu.Props.C116_refuted"
   ],
   "note": "The full claim is false of the code as it stands; refuted by C116_refuted. What does hold: C116_partial."
  },
  {
   "property": "C117",
   "status": "partial",
   "theorems": [
    "Scribbu.Props.C117_partial",
    "Scribbu.Props.C117_value",
    "Scribbu.Props.C117_refuted",
    "Scribbu.Props.C117_refuted_stdout"
   ],
   "note": "The full claim is false of the code as it stands; refuted by C117_refuted, C117_refuted_stdout. What does hold: C117_partial, C117_value."
  },
  {
   "property": "C118",
   "status": "proved",
   "theorems": [
    "Scribbu.Props.C118_safe",
    "Scribbu.Props.C118_shell",
    "Scribbu.Props.C118_sub"
   ],
   "note": "Proved in full."
  },
  {
   "property": "C119",
   "status": "proved",
   "theorems": [
    "Scribbu.Props.C119_table",
    "Scribbu.Props.C119_run",
    "Scribbu.Props.C119_twice"
   ],
   "note": "Proved in full."
  },
  {
   "property": "C120",
   "status": "partial",
   "theorems": [
    "Scribbu.Props.C120_partial",
    "Scribbu.Props.C120_refuted"
   ],
   "note": "The full claim is false of the code as it stands; refuted by C120_refuted. What does hold: C120_partial."
  },
  {
   "property": "C121",
   "status": "partial",
   "theorems": [
    "Scribbu.Props.C121_refuted",
    "Scribbu.Props.C121_refuted_control",
    "Scribbu.Props.C121_refuted_counter",
    "Scribbu.Props.C121_refuted_ufid",
    "Scribbu.Props.C121_refuted_cloud",
    "Scribbu.Props.C121_refuted_null",
    "Scribbu.Props.C121_refuted_id",
    "Scribbu.Props.C121_refuted_v22",
    "Scribbu.Props.C121_refuted_v24",
    "Scribbu.Props.C121_refuted_cut",
    "Scribbu.Props.C121_partial"
   ],
   "note": "The full claim is false of the code as it stands; refuted by C121_refuted, C121_refuted_control, C121_refuted_counter, C121_refuted_ufid, C121_refuted_cloud, C121_refuted_null, C121_refuted_id, C121_refuted_v22, C121_refuted_v24, C121_refuted_cut. What does hold: C121_partial."
  },
  {
   "property": "C122",
   "status": "partial",
   "theorems": [
    "Scribbu.Props.C122_partial",
    "Scribbu.Props.C122_refuted"
   ],
   "note": "The full claim is false of the code as it stands; refuted by C122_refuted. What does hold: C122_partial."
  },
  {
   "property": "C123",
   "status": "partial",
   "theorems": [
    "Scribbu.Props.C123_refuted",
    "Scribbu.Props.C123_refuted_v22",
    "Scribbu.Props.C123_refuted_counter",
    "Scribbu.Props.C123_refuted_owner",
    "Scribbu.Props.C123_partial"
   ],
   "note": "The full claim is false of the code as it stands; refuted by C123_refuted, C123_refuted_v22, C123_refuted_counter, C123_refuted_owner. What does hold: C123_partial."
  },
  {
   "property": "C124",
   "status": "partial",
   "theorems": [
    "Scribbu.Props.C124_refuted",
    "Scribbu.Props.C124_refuted_cut",
    "Scribbu.Props.C124_partial",
    "Scribbu.Props.C124_lines_partial"
   ],
   "note": "The full claim is false of the code as it stands; refuted by C124_refuted, C124_refuted_cut. What does hold: C124_partial, C124_lines_partial."
  },
  {
   "property": "C125",
   "status": "partial",
   "theorems": [
    "Scribbu.Props.C125_refuted",
    "Scribbu.Props.C125_partial"
   ],
   "note": "The full claim is false of the code as it stands; refuted by C125_refuted. What does hold: C125_partial."
  },
  {
   "property": "C126",
   "status": "partial",
   "theorems": [
    "Scribbu.Props.C126_refuted",
    "Scribbu.Props.C126_partial"
   ],
   "note": "The full claim is false of the code as it stands; refuted by C126_refuted. What does hold: C126_partial."
  },
  {
   "property": "C127",
   "status": "partial",
   "theorems": [
    "Scribbu.Props.C127_refuted",
    "Scribbu.Props.C127_refuted_cloud",
    "Scribbu.Props.C127_partial"
   ],
   "note": "The full claim is false of the code as it stands; refuted by C127_refuted, C127_refuted_cloud. What does hold: C127_partial."
  },
  {
   "property": "C128",
   "status": "partial",
   "theorems": [
    "Scribbu.Props.C128_refuted",
    "Scribbu.Props.C128_refuted_unknown",
    "Scribbu.Props.C128_refuted_feed",
    "Scribbu.Props.C128_partial"
   ],
   "note": "The full claim is false of the code as it stands; refuted by C128_refuted, C128_refuted_unknown, C128_refuted_feed. What does hold: C128_partial."
  },
  {
   "property": "C129",
   "status": "partial",
   "theorems": [
    "Scribbu.Props.C129_refuted",
    "Scribbu.Props.C129_refuted_language",
    "Scribbu.Props.C129_partial"
   ],
   "note": "The full claim is false of the code as it stands; refuted by C129_refuted, C129_refuted_language. What does hold: C129_partial."
  },
  {
   "property": "C130",
   "status": "partial",
   "theorems": [
    "Scribbu.Props.C130_refuted",
    "Scribbu.Props.C130_refuted_language",
    "Scribbu.Props.C130_partial"
   ],
   "note": "The full claim is false of the code as it stands; refuted by C130_refuted, C130_refuted_language. What does hold: C130_partial."
  },
  {
   "property": "C131",
   "status": "partial",
   "theorems": [
    "Scribbu.Props.C131_refuted",
    "Scribbu.Props.C131_partial"
   ],
   "note": "The full claim is false of the code as it stands; refuted by C131_refuted. What does hold: C131_partial."
  },
  {
   "property": "C132",
   "status": "partial",
   "theorems": [
    "Scribbu.Props.C132_refuted",
    "Scribbu.Props.C132_refuted_overlap",
    "Scribbu.Props.C132_partial",
    "Scribbu.Props.C132_json_partial"
   ],
   "note": "The full claim is false of the code as it stands; refuted by C132_refuted, C132_refuted_overlap. What does hold: C132_partial, C132_json_partial."
  },
  {
   "property": "C133",
   "status": "partial",
   "theorems": [
    "Scribbu.Props.C133_footed_partial",
    "Scribbu.Props.C133_refuted",
    "Scribbu.Props.C133_partial"
   ],
   "note": "The full claim is false of the code as it stands; refuted by C133_refuted. What does hold: C133_footed_partial, C133_partial."
  },
  {
   "property": "C134",
   "status": "partial",
   "theorems": [
    "Scribbu.Props.C134_refuted_every",
    "Scribbu.Props.C134_partial",
    "Scribbu.Props.C134_none_partial",
    "Scribbu.Props.C134_refuted"
   ],
   "note": "The full claim is false of the code as it stands; refuted by C134_refuted_every, C134_refuted. What does hold: C134_partial, C134_none_partial."
  },
  {
   "property": "C135",
   "status": "partial",
   "theorems": [
    "Scribbu.Props.C135_partial",
    "Scribbu.Props.C135_refuted",
    "Scribbu.Props.C135_refuted_enhanced",
    "Scribbu.Props.C135_refuted_year"
   ],
   "note": "The full claim is false of the code as it stands; refuted by C135_refuted, C135_refuted_enhanced, C135_refuted_year. What does hold: C135_partial."
  },
  {
   "property": "C136",
   "status": "partial",
   "theorems": [
    "Scribbu.Props.C136_refuted",
    "Scribbu.Props.C136_refuted_owner",
    "Scribbu.Props.C136_refuted_flags",
    "Scribbu.Props.C136_refuted_v22",
    "Scribbu.Props.C136_partial",
    "Scribbu.Props.C136_structure_partial",
    "Scribbu.Props.C136_refuted_language"
   ],
   "note": "The full claim is false of the code as it stands; refuted by C136_refuted, C136_refuted_owner, C136_refuted_flags, C136_refuted_v22, C136_refuted_language. What does hold: C136_partial, C136_structure_partial."
  },
  {
   "property": "C137",
   "status": "partial",
   "theorems": [
    "Scribbu.Props.C137_language_partial",
    "Scribbu.Props.C137_refuted_v22",
    "Scribbu.Props.C137_refuted",
    "Scribbu.Props.C137_refuted_cloud",
    "Scribbu.Props.C137_refuted_text",
    "Scribbu.Props.C137_refuted_priv",
    "Scribbu.Props.C137_partial",
    "Scribbu.Props.C137_inplace_partial",
    "Scribbu.Props.C137_created_partial"
   ],
   "note": "The full claim is false of the code as it stands; refuted by C137_refuted_v22, C137_refuted, C137_refuted_cloud, C137_refuted_text, C137_refuted_priv. What does hold: C137_language_partial, C137_partial, C137_inplace_partial, C137_created_partial."
  },
  {
   "property": "C138",
   "status": "partial",
   "theorems": [
    "Scribbu.Props.C138_refuted",
    "Scribbu.Props.C138_refuted_unsync",
    "Scribbu.Props.C138_refuted_udt",
    "Scribbu.Props.C138_partial"
   ],
   "note": "The full claim is false of the code as it stands; refuted by C138_refuted, C138_refuted_unsync, C138_refuted_udt. What does hold: C138_partial."
  },
  {
   "property": "C139",
   "status": "proved",
   "theorems": [
    "Scribbu.Props.C139_has",
    "Scribbu.Props.C139_get"
   ],
   "note": "Proved in full."
  },
  {
   "property": "C140",
   "status": "partial",
   "theorems": [
    "Scribbu.Props.C140_refuted",
    "Scribbu.Props.C140_refuted_priv",
    "Scribbu.Props.C140_partial",
    "Scribbu.Props.C140_read_partial",
    "Scribbu.Props.C140_both_partial",
    "Scribbu.Props.C140_distinct",
    "Scribbu.Props.C140_v22_partial"
   ],
   "note": "The full claim is false of the code as it stands; refuted by C140_refuted, C140_refuted_priv. What does hold: C140_partial, C140_read_partial, C140_both_partial, C140_distinct, C140_v22_partial."
  },
  {
   "property": "C141",
   "status": "partial",
   "theorems": [
    "Scribbu.Props.C141_refuted",
    "Scribbu.Props.C141_refuted_link",
    "Scribbu.Props.C141_partial",
    "Scribbu.Props.C141_plain_partial"
   ],
   "note": "The full claim is false of the code as it stands; refuted by C141_refuted, C141_refuted_link. What does hold: C141_partial, C141_plain_partial."
  },
  {
   "property": "C142",
   "status": "partial",
   "theorems": [
    "Scribbu.Props.C142_refuted",
    "Scribbu.Props.C142_refuted_open",
    "Scribbu.Props.C142_partial",
    "Scribbu.Props.C142_clean_partial"
   ],
   "note": "The full claim is false of the code as it stands; refuted by C142_refuted, C142_refuted_open. What does hold: C142_partial, C142_clean_partial."
  },
  {
   "property": "C143",
   "status": "partial",
   "theorems": [
    "Scribbu.Props.C143_refuted",
    "Scribbu.Props.C143_refuted_v1",
    "Scribbu.Props.C143_refuted_name",
    "Scribbu.Props.C143_partial"
   ],
   "note": "The full claim is false of the code as it stands; refuted by C143_refuted, C143_refuted_v1, C143_refuted_name. What does hold: C143_partial."
  },
  {
   "property": "C144",
   "status": "partial",
   "theorems": [
    "Scribbu.Props.C144_refuted",
    "Scribbu.Props.C144_refuted_padding",
    "Scribbu.Props.C144_refuted_v22",
    "Scribbu.Props.C144_partial"
   ],
   "note": "The full claim is false of the code as it stands; refuted by C144_refuted, C144_refuted_padding, C144_refuted_v22. What does hold: C144_partial."
  },
  {
   "property": "C145",
   "status": "partial",
   "theorems": [
    "Scribbu.Props.C145_refuted",
    "Scribbu.Props.C145_refuted_lost",
    "Scribbu.Props.C145_refuted_left",
    "Scribbu.Props.C145_partial",
    "Scribbu.Props.C145_status_partial"
   ],
   "note": "The full claim is false of the code as it stands; refuted by C145_refuted, C145_refuted_lost, C145_refuted_left. What does hold: C145_partial, C145_status_partial."
  },
  {
   "property": "C146",
   "status": "proved",
   "theorems": [
    "Scribbu.Props.C146_list"
   ],
   "note": "Proved in full."
  },
  {
   "property": "C147",
   "status": "partial",
   "theorems": [
    "Scribbu.Props.C147_refuted",
    "Scribbu.Props.C147_refuted_delete",
    "Scribbu.Props.C147_refuted_copy",
    "Scribbu.Props.C147_partial"
   ],
   "note": "The full claim is false of the code as it stands; refuted by C147_refuted, C147_refuted_delete, C147_refuted_copy. What does hold: C147_partial."
  },
  {
   "property": "C148",
   "status": "partial",
   "theorems": [
    "Scribbu.Props.C148_refuted",
    "Scribbu.Props.C148_refuted_twice",
    "Scribbu.Props.C148_partial"
   ],
   "note": "The full claim is false of the code as it stands; refuted by C148_refuted, C148_refuted_twice. What does hold: C148_partial."
  },
  {
   "property": "C149",
   "status": "partial",
   "theorems": [
    "Scribbu.Props.C149_refuted",
    "Scribbu.Props.C149_refuted_version",
    "Scribbu.Props.C149_refuted_alien",
    "Scribbu.Props.C149_partial"
   ],
   "note": "The full claim is false of the code as it stands; refuted by C149_refuted, C149_refuted_version, C149_refuted_alien. What does hold: C149_partial."
  },
  {
   "property": "C150",
   "status": "partial",
   "theorems": [
    "Scribbu.Props.C150_refuted_ufid",
    "Scribbu.Props.C150_refuted",
    "Scribbu.Props.C150_refuted_hex",
    "Scribbu.Props.C150_refuted_priv",
    "Scribbu.Props.C150_refuted_v24",
    "Scribbu.Props.C150_partial",
    "Scribbu.Props.C150_tsv_partial"
   ],
   "note": "The full claim is false of the code as it stands; refuted by C150_refuted_ufid, C150_refuted, C150_refuted_hex, C150_refuted_priv, C150_refuted_v24. What does hold: C150_partial, C150_tsv_partial."
  },
  {
   "property": "C151",
   "status": "proved",
   "theorems": [
    "Scribbu.Props.C151_no_race",
    "Scribbu.Props.C151_in_turn",
    "Scribbu.Props.C151_order",
    "Scribbu.Props.C151_finishes"
   ],
   "note": "Proved in full."
  },
  {
   "property": "C152",
   "status": "partial",
   "theorems": [
    "Scribbu.Props.C152_refuted",
    "Scribbu.Props.C152_refuted_counter",
    "Scribbu.Props.C152_refuted_text",
    "Scribbu.Props.C152_refuted_masked",
    "Scribbu.Props.C152_refuted_own",
    "Scribbu.Props.C152_partial",
    "Scribbu.Props.C152_refuted_moment"
   ],
   "note": "The full claim is false of the code as it stands; refuted by C152_refuted, C152_refuted_counter, C152_refuted_text, C152_refuted_masked, C152_refuted_own, C152_refuted_moment. What does hold: C152_partial."
  },
  {
   "property": "C153",
   "status": "partial",
   "theorems": [
    "Scribbu.Props.C153_refuted",
    "Scribbu.Props.C153_refuted_copy",
    "Scribbu.Props.C153_refuted_ext",
    "Scribbu.Props.C153_refuted_head",
    "Scribbu.Props.C153_refuted_blind",
    "Scribbu.Props.C153_refuted_next",
    "Scribbu.Props.C153_partial"
   ],
   "note": "The full claim is false of the code as it stands; refuted by C153_refuted, C153_refuted_copy, C153_refuted_ext, C153_refuted_head, C153_refuted_blind, C153_refuted_next. What does hold: C153_partial."
  },
  {
   "property": "C154",
   "status": "partial",
   "theorems": [
    "Scribbu.Props.C154_refuted_nothing",
    "Scribbu.Props.C154_refuted",
    "Scribbu.Props.C154_refuted_sound",
    "Scribbu.Props.C154_refuted_each",
    "Scribbu.Props.C154_refuted_empty",
    "Scribbu.Props.C154_refuted_short",
    "Scribbu.Props.C154_refuted_version",
    "Scribbu.Props.C154_partial"
   ],
   "note": "The full claim is false of the code as it stands; refuted by C154_refuted_nothing, C154_refuted, C154_refuted_sound, C154_refuted_each, C154_refuted_empty, C154_refuted_short, C154_refuted_version. What does hold: C154_partial."
  },
  {
   "property": "C155",
   "status": "partial",
   "theorems": [
    "Scribbu.Props.C155_refuted",
    "Scribbu.Props.C155_refuted_short",
    "Scribbu.Props.C155_partial",
    "Scribbu.Props.C155_refuted_junk",
    "Scribbu.Props.C155_junk_partial"
   ],
   "note": "The full claim is false of the code as it stands; refuted by C155_refuted, C155_refuted_short, C155_refuted_junk. What does hold: C155_partial, C155_junk_partial."
  },
  {
   "property": "C156",
   "status": "partial",
   "theorems": [
    "Scribbu.Props.C156_refuted_vbri",
    "Scribbu.Props.C156_refuted",
    "Scribbu.Props.C156_refuted_protected",
    "Scribbu.Props.C156_refuted_short",
    "Scribbu.Props.C156_xing_partial",
    "Scribbu.Props.C156_lame_partial"
   ],
   "note": "The full claim is false of the code as it stands; refuted by C156_refuted_vbri, C156_refuted, C156_refuted_protected, C156_refuted_short. What does hold: C156_xing_partial, C156_lame_partial."
  },
  {
   "property": "C157",
   "status": "partial",
   "theorems": [
    "Scribbu.Props.C157_refuted",
    "Scribbu.Props.C157_refuted_short",
    "Scribbu.Props.C157_partial",
    "Scribbu.Props.C157_vbr_partial",
    "Scribbu.Props.C157_refuted_throw",
    "Scribbu.Props.C157_throw_partial"
   ],
   "note": "The full claim is false of the code as it stands; refuted by C157_refuted, C157_refuted_short, C157_refuted_throw. What does hold: C157_partial, C157_vbr_partial, C157_throw_partial."
  },
  {
   "property": "C158",
   "status": "partial",
   "theorems": [
    "Scribbu.Props.C158_refuted",
    "Scribbu.Props.C158_partial",
    "Scribbu.Props.C158_unsync_partial",
    "Scribbu.Props.C158_refuted_v24",
    "Scribbu.Props.C158_refuted_stale",
    "Scribbu.Props.C158_refuted_read"
   ],
   "note": "The full claim is false of the code as it stands; refuted by C158_refuted, C158_refuted_v24, C158_refuted_stale, C158_refuted_read. What does hold: C158_partial, C158_unsync_partial."
  },
  {
   "property": "C159",
   "status": "partial",
   "theorems": [
    "Scribbu.Props.C159_refuted",
    "Scribbu.Props.C159_refuted_group",
    "Scribbu.Props.C159_refuted_latin",
    "Scribbu.Props.C159_partial"
   ],
   "note": "The full claim is false of the code as it stands; refuted by C159_refuted, C159_refuted_group, C159_refuted_latin. What does hold: C159_partial."
  },
  {
   "property": "C160",
   "status": "partial",
   "theorems": [
    "Scribbu.Props.C160_refuted",
    "Scribbu.Props.C160_refuted_kept",
    "Scribbu.Props.C160_partial",
    "Scribbu.Props.C160_untouched_partial"
   ],
   "note": "The full claim is false of the code as it stands; refuted by C160_refuted, C160_refuted_kept. What does hold: C160_partial, C160_untouched_partial."
  },
  {
   "property": "C161",
   "status": "proved",
   "theorems": [
    "Scribbu.Props.C161_again"
   ],
   "note": "Proved in full."
  },
  {
   "property": "C162",
   "status": "partial",
   "theorems": [
    "Scribbu.Props.C162_refuted",
    "Scribbu.Props.C162_refuted_hebrew",
    "Scribbu.Props.C162_refuted_order",
    "Scribbu.Props.C162_partial"
   ],
   "note": "The full claim is false of the code as it stands; refuted by C162_refuted, C162_refuted_hebrew, C162_refuted_order. What does hold: C162_partial."
  },
  {
   "property": "C163",
   "status": "partial",
   "theorems": [
    "Scribbu.Props.C163_refuted",
    "Scribbu.Props.C163_refuted_history",
    "Scribbu.Props.C163_partial",
    "Scribbu.Props.C163_absent"
   ],
   "note": "The full claim is false of the code as it stands; refuted by C163_refuted, C163_refuted_history. What does hold: C163_partial, C163_absent."
  },
  {
   "property": "C164",
   "status": "partial",
   "theorems": [
    "Scribbu.Props.C164_refuted",
    "Scribbu.Props.C164_partial"
   ],
   "note": "The full claim is false of the code as it stands; refuted by C164_refuted. What does hold: C164_partial."
  },
  {
   "property": "C165",
   "status": "proved",
   "theorems": [
    "Scribbu.Props.C165_comment"
   ],
   "note": "Proved in full."
  },
  {
   "property": "C166",
   "status": "partial",
   "theorems": [
    "Scribbu.Props.C166_unreadable",
    "Scribbu.Props.C166_refuted",
    "Scribbu.Props.C166_partial"
   ],
   "note": "The full claim is false of the code as it stands; refuted by C166_refuted. What does hold: C166_unreadable, C166_partial."
  },
  {
   "property": "C167",
   "status": "partial",
   "theorems": [
    "Scribbu.Props.C167_refuted",
    "Scribbu.Props.C167_refuted_order",
    "Scribbu.Props.C167_partial"
   ],
   "note": "The full claim is false of the code as it stands; refuted by C167_refuted, C167_refuted_order. What does hold: C167_partial."
  },
  {
   "property": "C168",
   "status": "partial",
   "theorems": [
    "Scribbu.Props.C168_refuted",
    "Scribbu.Props.C168_refused",
    "Scribbu.Props.C168_partial"
   ],
   "note": "The full claim is false of the code as it stands; refuted by C168_refuted. What does hold: C168_refused, C168_partial."
  },
  {
   "property": "C169",
   "status": "partial",
   "theorems": [
    "Scribbu.Props.C169_refuted_always",
    "Scribbu.Props.C169_refuted",
    "Scribbu.Props.C169_partial"
   ],
   "note": "The full claim is false of the code as it stands; refuted by C169_refuted_always, C169_refuted. What does hold: C169_partial."
  },
  {
   "property": "C170",
   "status": "partial",
   "theorems": [
    "Scribbu.Props.C170_refuted_always",
    "Scribbu.Props.C170_refuted",
    "Scribbu.Props.C170_partial"
   ],
   "note": "The full claim is false of the code as it stands; refuted by C170_refuted_always, C170_refuted. What does hold: C170_partial."
  },
  {
   "property": "C171",
   "status": "partial",
   "theorems": [
    "Scribbu.Props.C171_refuted",
    "Scribbu.Props.C171_partial"
   ],
   "note": "The full claim is false of the code as it stands; refuted by C171_refuted. What does hold: C171_partial."
  },
  {
   "property": "C172",
   "status": "proved",
   "theorems": [
    "Scribbu.Props.C172_command_line",
    "Scribbu.Props.C172_preset"
   ],
   "note": "Proved in full."
  },
  {
   "property": "C173",
   "status": "partial",
   "theorems": [
    "Scribbu.Props.C173_refuted_always",
    "Scribbu.Props.C173_refuted",
    "Scribbu.Props.C173_partial"
   ],
   "note": "The full claim is false of the code as it stands; refuted by C173_refuted_always, C173_refuted. What does hold: C173_partial."
  },
  {
   "property": "C174",
   "status": "partial",
   "theorems": [
    "Scribbu.Props.C174_refuted",
    "Scribbu.Props.C174_partial"
   ],
   "note": "The full claim is false of the code as it stands; refuted by C174_refuted. What does hold: C174_partial."
  },
  {
   "property": "C175",
   "status": "proved",
   "theorems": [
    "Scribbu.Props.C175_list"
   ],
   "note": "Proved in full."
  },
  {
   "property": "C176",
   "status": "partial",
   "theorems": [
    "Scribbu.Props.C176_refuted",
    "Scribbu.Props.C176_refuted_blank",
    "Scribbu.Props.C176_partial",
    "Scribbu.Props.C176_missing"
   ],
   "note": "The full claim is false of the code as it stands; refuted by C176_refuted, C176_refuted_blank. What does hold: C176_partial, C176_missing."
  },
  {
   "property": "C177",
   "status": "partial",
   "theorems": [
    "Scribbu.Props.C177_refuted_always",
    "Scribbu.Props.C177_refuted",
    "Scribbu.Props.C177_partial"
   ],
   "note": "The full claim is false of the code as it stands; refuted by C177_refuted_always, C177_refuted. What does hold: C177_partial."
  },
  {
   "property": "C178",
   "status": "partial",
   "theorems": [
    "Scribbu.Props.C178_refuted_always",
    "Scribbu.Props.C178_refuted_size",
    "Scribbu.Props.C178_refuted",
    "Scribbu.Props.C178_partial",
    "Scribbu.Props.C178_exact",
    "Scribbu.Props.C178_after_size"
   ],
   "note": "The full claim is false of the code as it stands; refuted by C178_refuted_always, C178_refuted_size, C178_refuted. What does hold: C178_partial, C178_exact, C178_after_size."
  },
  {
   "property": "C179",
   "status": "partial",
   "theorems": [
    "Scribbu.Props.C179_refuted",
    "Scribbu.Props.C179_refuted_tmp",
    "Scribbu.Props.C179_partial",
    "Scribbu.Props.C179_alone"
   ],
   "note": "The full claim is false of the code as it stands; refuted by C179_refuted, C179_refuted_tmp. What does hold: C179_partial, C179_alone."
  },
  {
   "property": "C180",
   "status": "partial",
   "theorems": [
    "Scribbu.Props.C180_refuted_lost",
    "Scribbu.Props.C180_refuted",
    "Scribbu.Props.C180_partial",
    "Scribbu.Props.C180_edit_partial",
    "Scribbu.Props.C180_audio_partial"
   ],
   "note": "The full claim is false of the code as it stands; refuted by C180_refuted_lost, C180_refuted. What does hold: C180_partial, C180_edit_partial, C180_audio_partial."
  },
  {
   "property": "C181",
   "status": "partial",
   "theorems": [
    "Scribbu.Props.C181_refuted_gone",
    "Scribbu.Props.C181_refuted",
    "Scribbu.Props.C181_partial"
   ],
   "note": "The full claim is false of the code as it stands; refuted by C181_refuted_gone, C181_refuted. What does hold: C181_partial."
  },
  {
   "property": "C182",
   "status": "partial",
   "theorems": [
    "Scribbu.Props.C182_refuted_hidden",
    "Scribbu.Props.C182_refuted",
    "Scribbu.Props.C182_partial"
   ],
   "note": "The full claim is false of the code as it stands; refuted by C182_refuted_hidden, C182_refuted. What does hold: C182_partial."
  },
  {
   "property": "C183",
   "status": "proved",
   "theorems": [
    "Scribbu.Props.C183_files",
    "Scribbu.Props.C183_most",
    "Scribbu.Props.C183_accepted"
   ],
   "note": "Proved in full."
  },
  {
   "property": "C184",
   "status": "proved",
   "theorems": [
    "Scribbu.Props.C184_given",
    "Scribbu.Props.C184_twice"
   ],
   "note": "Proved in full."
  },
  {
   "property": "C185",
   "status": "partial",
   "theorems": [
    "Scribbu.Props.C185_refuted_text",
    "Scribbu.Props.C185_refuted",
    "Scribbu.Props.C185_refuted_genre",
    "Scribbu.Props.C185_refuted_genre_fails",
    "Scribbu.Props.C185_refuted_popm",
    "Scribbu.Props.C185_refuted_xtag",
    "Scribbu.Props.C185_text_partial",
    "Scribbu.Props.C185_text",
    "Scribbu.Props.C185_genre_partial",
    "Scribbu.Props.C185_xtag_partial",
    "Scribbu.Props.C185_popm_partial"
   ],
   "note": "The full claim is false of the code as it stands; refuted by C185_refuted_text, C185_refuted, C185_refuted_genre, C185_refuted_genre_fails, C185_refuted_popm, C185_refuted_xtag. What does hold: C185_text_partial, C185_text, C185_genre_partial, C185_xtag_partial, C185_popm_partial."
  },
  {
   "property": "C186",
   "status": "partial",
   "theorems": [
    "Scribbu.Props.C186_refuted",
    "Scribbu.Props.C186_partial",
    "Scribbu.Props.C186_texts"
   ],
   "note": "The full claim is false of the code as it stands; refuted by C186_refuted. What does hold: C186_partial, C186_texts."
  },
  {
   "property": "C187",
   "status": "partial",
   "theorems": [
    "Scribbu.Props.C187_refuted",
    "Scribbu.Props.C187_refuted_comment",
    "Scribbu.Props.C187_refuted_cloud",
    "Scribbu.Props.C187_refuted_unknown",
    "Scribbu.Props.C187_partial",
    "Scribbu.Props.C187_line",
    "Scribbu.Props.C187_refuted_line",
    "Scribbu.Props.C187_read",
    "Scribbu.Props.C187_refuted_artist"
   ],
   "note": "The full claim is false of the code as it stands; refuted by C187_refuted, C187_refuted_comment, C187_refuted_cloud, C187_refuted_unknown, C187_refuted_line, C187_refuted_artist. What does hold: C187_partial, C187_line, C187_read."
  },
  {
   "property": "C188",
   "status": "partial",
   "theorems": [
    "Scribbu.Props.C188_refuted",
    "Scribbu.Props.C188_refuted_write",
    "Scribbu.Props.C188_partial",
    "Scribbu.Props.C188_text",
    "Scribbu.Props.C188_refuted_symbol",
    "Scribbu.Props.C188_refuted_comment"
   ],
   "note": "The full claim is false of the code as it stands; refuted by C188_refuted, C188_refuted_write, C188_refuted_symbol, C188_refuted_comment. What does hold: C188_partial, C188_text."
  },
  {
   "property": "C189",
   "status": "partial",
   "theorems": [
    "Scribbu.Props.C189_refuted",
    "Scribbu.Props.C189_refuted_twice",
    "Scribbu.Props.C189_partial",
    "Scribbu.Props.C189_done_partial",
    "Scribbu.Props.C189_copies_partial",
    "Scribbu.Props.C189_alone_partial"
   ],
   "note": "The full claim is false of the code as it stands; refuted by C189_refuted, C189_refuted_twice. What does hold: C189_partial, C189_done_partial, C189_copies_partial, C189_alone_partial."
  },
  {
   "property": "C190",
   "status": "partial",
   "theorems": [
    "Scribbu.Props.C190_refuted",
    "Scribbu.Props.C190_refuted_rename",
    "Scribbu.Props.C190_partial",
    "Scribbu.Props.C190_failed_partial",
    "Scribbu.Props.C190_rename_partial"
   ],
   "note": "The full claim is false of the code as it stands; refuted by C190_refuted, C190_refuted_rename. What does hold: C190_partial, C190_failed_partial, C190_rename_partial."
  },
  {
   "property": "C191",
   "status": "partial",
   "theorems": [
    "Scribbu.Props.C191_refuted",
    "Scribbu.Props.C191_partial"
   ],
   "note": "The full claim is false of the code as it stands; refuted by C191_refuted. What does hold: C191_partial."
  },
  {
   "property": "C192",
   "status": "partial",
   "theorems": [
    "Scribbu.Props.C192_refuted",
    "Scribbu.Props.C192_refuted_v1",
    "Scribbu.Props.C192_partial",
    "Scribbu.Props.C192_history_partial"
   ],
   "note": "The full claim is false of the code as it stands; refuted by C192_refuted, C192_refuted_v1. What does hold: C192_partial, C192_history_partial."
  },
  {
   "property": "C193",
   "status": "partial",
   "theorems": [
    "Scribbu.Props.C193_refuted",
    "Scribbu.Props.C193_refuted_unicode",
    "Scribbu.Props.C193_refuted_zero",
    "Scribbu.Props.C193_partial",
    "Scribbu.Props.C193_numbers"
   ],
   "note": "The full claim is false of the code as it stands; refuted by C193_refuted, C193_refuted_unicode, C193_refuted_zero. What does hold: C193_partial, C193_numbers."
  },
  {
   "property": "C194",
   "status": "partial",
   "theorems": [
    "Scribbu.Props.C194_refuted",
    "Scribbu.Props.C194_refuted_size",
    "Scribbu.Props.C194_partial"
   ],
   "note": "The full claim is false of the code as it stands; refuted by C194_refuted, C194_refuted_size. What does hold: C194_partial."
  },
  {
   "property": "C195",
   "status": "partial",
   "theorems": [
    "Scribbu.Props.C195_refuted",
    "Scribbu.Props.C195_refuted_v22",
    "Scribbu.Props.C195_refuted_v24",
    "Scribbu.Props.C195_v23_partial",
    "Scribbu.Props.C195_v24_partial",
    "Scribbu.Props.C195_v22_partial"
   ],
   "note": "The full claim is false of the code as it stands; refuted by C195_refuted, C195_refuted_v22, C195_refuted_v24. What does hold: C195_v23_partial, C195_v24_partial, C195_v22_partial."
  },
  {
   "property": "C196",
   "status": "partial",
   "theorems": [
    "Scribbu.Props.C196_refuted",
    "Scribbu.Props.C196_refuted_longer",
    "Scribbu.Props.C196_partial"
   ],
   "note": "The full claim is false of the code as it stands; refuted by C196_refuted, C196_refuted_longer. What does hold: C196_partial."
  },
  {
   "property": "C197",
   "status": "proved",
   "theorems": [
    "Scribbu.Props.C197_tag",
    "Scribbu.Props.C197_followed",
    "Scribbu.Props.C197_file"
   ],
   "note": "Proved in full."
  },
  {
   "property": "C198",
   "status": "proved",
   "theorems": [
    "Scribbu.Props.C198_read",
    "Scribbu.Props.C198_found",
    "Scribbu.Props.C198_removed",
    "Scribbu.Props.C198_replaced",
    "Scribbu.Props.C198_no_fewer"
   ],
   "note": "Proved in full."
  },
  {
   "property": "C199",
   "status": "proved",
   "theorems": [
    "Scribbu.Props.C199_tags",
    "Scribbu.Props.C199_last"
   ],
   "note": "Proved in full."
  },
  {
   "property": "C200",
   "status": "proved",
   "theorems": [
    "Scribbu.Props.C200_canonical",
    "Scribbu.Props.C200_order"
   ],
   "note": "Proved in full."
  },
  {
   "property": "C201",
   "status": "partial",
   "theorems": [
    "Scribbu.Props.C201_refuted",
    "Scribbu.Props.C201_refuted_written",
    "Scribbu.Props.C201_enhanced_partial",
    "Scribbu.Props.C201_plain_partial"
   ],
   "note": "The full claim is false of the code as it stands; refuted by C201_refuted, C201_refuted_written. What does hold: C201_enhanced_partial, C201_plain_partial."
  },
  {
   "property": "C202",
   "status": "proved",
   "theorems": [
    "Scribbu.Props.C202_at_once",
    "Scribbu.Props.C202_resynchronised",
    "Scribbu.Props.C202_pieces",
    "Scribbu.Props.C202_rule_needed"
   ],
   "note": "Proved in full."
  },
  {
   "property": "C203",
   "status": "proved",
   "theorems": [
    "Scribbu.TextOrder.Scribbu.Props.Scribbu.TextOrder.Scribbu.Props.C203_texts",
    "Scribbu.TextOrder.Scribbu.Props.Scribbu.TextOrder.Scribbu.Props.C203_order",
    "Scribbu.TextOrder.Scribbu.Props.Scribbu.TextOrder.Scribbu.Props.C203_frames_in_order_of_calls"
   ],
   "note": "Proved in full."
  },
  {
   "property": "C204",
   "status": "partial",
   "theorems": [
    "Scribbu.Props.C204_refuted",
    "Scribbu.Props.C204_partial",
    "Scribbu.Props.C204_replacement_partial"
   ],
   "note": "The full claim is false of the code as it stands; refuted by C204_refuted. What does hold: C204_partial, C204_replacement_partial."
  },
  {
   "property": "C205",
   "status": "partial",
   "theorems": [
    "Scribbu.Props.C205_encode",
    "Scribbu.Props.C205_refuted",
    "Scribbu.Props.C205_decode_partial",
    "Scribbu.Props.C205_encoded",
    "Scribbu.Props.C205_prefix"
   ],
   "note": "The full claim is false of the code as it stands; refuted by C205_refuted. What does hold: C205_encode, C205_decode_partial, C205_encoded, C205_prefix."
  },
  {
   "property": "C206",
   "status": "partial",
   "theorems": [
    "Scribbu.CloudPieces.Scribbu.Props.C206_refuted",
    "Scribbu.CloudPieces.Scribbu.Props.C206_together_partial",
    "Scribbu.CloudPieces.Scribbu.Props.C206_values_partial"
   ],
   "note": "The full claim is false of the code as it stands; refuted by C206_refuted. What does hold: C206_together_partial, C206_values_partial."
  },
  {
   "property": "C207",
   "status": "partial",
   "theorems": [
    "Scribbu.Props.C207_duration",
    "Scribbu.Props.C207_stream",
    "Scribbu.Props.C207_refuted",
    "Scribbu.Props.C207_partial",
    "Scribbu.Props.C207_footer_partial",
    "Scribbu.Props.C207_footed_partial"
   ],
   "note": "The full claim is false of the code as it stands; refuted by C207_refuted. What does hold: C207_duration, C207_stream, C207_partial, C207_footer_partial, C207_footed_partial."
  },
  {
   "property": "C208",
   "status": "proved",
   "theorems": [
    "Scribbu.Props.Anywhere.C208_looking",
    "Scribbu.Props.Anywhere.C208_one",
    "Scribbu.Props.Anywhere.C208_numbered",
    "Scribbu.Props.Anywhere.C208_all",
    "Scribbu.Props.Anywhere.C208_first_and_rest"
   ],
   "note": "Proved in full."
  },
  {
   "property": "C209",
   "status": "partial",
   "theorems": [
    "Scribbu.Props.Masks.C209_looking",
    "Scribbu.Props.Masks.C209_one",
    "Scribbu.Props.Masks.C209_numbered",
    "Scribbu.Props.Masks.C209_all",
    "Scribbu.Props.Masks.C209_refuted",
    "Scribbu.Props.Masks.Masks.C209_duration_partial"
   ],
   "note": "The full claim is false of the code as it stands; refuted by C209_refuted. What does hold: C209_looking, C209_one, C209_numbered, C209_all, C209_duration_partial."
  }
 ]
}